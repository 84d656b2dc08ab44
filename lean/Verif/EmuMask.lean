import Verif.EmuArith

/-!
# Model of the mask, compress and expand operations of `hwy/ops/emu128-inl.h`

A mask is the array `bits[16 / sizeof(T)]` (emu128-inl.h:77-91), each element a value of the unsigned
type of the lane's size; it is `true` if not zero.  `t.bits` is the lane width; lane values of vectors are
of an arbitrary type `α` (integers or floats), with `zero` the default-initialised value.
-/

namespace Hwy
namespace Emu
open CInt

/-! ### Bits -/

/-- `BitsFromMask` (emu128-inl.h:396-403): `bits |= mask.bits[i] ? (1ull << i) : 0`. -/
def BitsFromMask (N : Nat) (m : List Int) : M Int :=
  forN N (fun i bits => do
    let x ← readAt m i
    let s ← if x ≠ 0 then shl ⟨u64, 1⟩ i else .ok ⟨u64, 0⟩
    return (cast u64 (bor ⟨u64, bits⟩ s)).v) 0

/-- `FirstN` (emu128-inl.h:405-412). -/
def FirstN (t : Ty) (N n : Nat) : M (List Int) :=
  forN N (fun i m => writeAt m i (fromBool t (decide (i < n)))) (zero t.unsigned)

/-- `AllFalse` (emu128-inl.h:2599-2606). -/
def AllFalse (t : Ty) (N : Nat) (m : List Int) : M Bool := do
  let s ← forN N (fun i s => do
    let x ← readAt m i
    return (cast t.unsigned (bor ⟨t.unsigned, s⟩ ⟨t.unsigned, x⟩)).v) 0
  return decide (s = 0)

/-- `AllTrue` (emu128-inl.h:2608-2616): `and_sum` is a `uint64_t`. -/
def AllTrue (t : Ty) (N : Nat) (m : List Int) : M Bool := do
  let s ← forN N (fun i s => do
    let x ← readAt m i
    return (cast u64 (band ⟨u64, s⟩ ⟨t.unsigned, x⟩)).v) t.unsigned.hi
  return decide (s = t.unsigned.hi)

/-- `LoadMaskBits` (emu128-inl.h:2618-2628). -/
def LoadMaskBits (t : Ty) (N : Nat) (bits : List Int) : M (List Int) :=
  forN N (fun i m => do
    let bit ← shl ⟨u64, 1⟩ ((i &&& 7 : Nat) : Int)
    let byte ← readAt bits (i >>> 3)
    writeAt m i (fromBool t (decide ((band ⟨u8, byte⟩ bit).v ≠ 0)))) (zero t.unsigned)

/-- `Dup128MaskFromMaskBits` (emu128-inl.h:2630-2637); `mask_bits` is an `unsigned`. -/
def Dup128MaskFromMaskBits (t : Ty) (N : Nat) (maskBits : Int) : M (List Int) :=
  forN N (fun i m => do
    let s ← shr ⟨u32, maskBits⟩ i
    writeAt m i (fromBool t (decide ((band s ⟨u32, 1⟩).v ≠ 0)))) (zero t.unsigned)

/-- `StoreMaskBits` (emu128-inl.h:2639-2652): the bytes after the call and the number of bytes. -/
def StoreMaskBits (N : Nat) (m : List Int) (bits : List Int) : M (List Int × Nat) := do
  let bits ← writeAt bits 0 0
  let bits ← if N > 8 then writeAt bits 1 0 else .ok bits
  let bits ← forN N (fun i bits => do
    let bit ← shl ⟨u64, 1⟩ ((i &&& 7 : Nat) : Int)
    let x ← readAt m i
    if x ≠ 0 then do
      let byte ← readAt bits (i >>> 3)
      writeAt bits (i >>> 3) (cast u8 (bor ⟨u8, byte⟩ bit)).v
    else .ok bits) bits
  return (bits, if N > 8 then 2 else 1)

/-- `CountTrue` (emu128-inl.h:2654-2661). -/
def CountTrue (N : Nat) (m : List Int) : M Nat :=
  forN N (fun i count => do
    let x ← readAt m i
    return count + (if x ≠ 0 then 1 else 0)) 0

/-- First index of the list whose mask element is not zero: the loops with early `return`. -/
def findTrue (m : List Int) : List Nat → M (Option Nat)
  | [] => .ok none
  | i :: is => do
    let x ← readAt m i
    if x ≠ 0 then .ok (some i) else findTrue m is

/-- `FindFirstTrue` (emu128-inl.h:2672-2678). -/
def FindFirstTrue (N : Nat) (m : List Int) : M Int := do
  match ← findTrue m (List.range N) with
  | some i => .ok i
  | none => .ok (-1)

/-- `FindKnownFirstTrue` (emu128-inl.h:2663-2670); `HWY_DASSERT(false)` if there is none. -/
def FindKnownFirstTrue (N : Nat) (m : List Int) : M Nat := do
  match ← findTrue m (List.range N) with
  | some i => .ok i
  | none => .error .ub

/-- `FindLastTrue` (emu128-inl.h:2689-2695): `for (i = N - 1; i >= 0; i--)`. -/
def FindLastTrue (N : Nat) (m : List Int) : M Int := do
  match ← findTrue m (List.range N).reverse with
  | some i => .ok i
  | none => .ok (-1)

/-- `FindKnownLastTrue` (emu128-inl.h:2680-2687). -/
def FindKnownLastTrue (N : Nat) (m : List Int) : M Nat := do
  match ← findTrue m (List.range N).reverse with
  | some i => .ok i
  | none => .error .ub

/-! ### Mask transformations -/

/-- `SetAtOrAfterFirst` (emu128-inl.h:2826-2843): the state is `(result, result_lane_mask)`; the
overload for one lane returns its argument. -/
def SetAtOrAfterFirst (t : Ty) (N : Nat) (m : List Int) : M (List Int) :=
  if N = 1 then .ok m
  else do
    let r ← forN N (fun i (s : List Int × Int) => do
      let x ← readAt m i
      let l := (cast t.unsigned (bor ⟨t.unsigned, s.2⟩ ⟨t.unsigned, x⟩)).v
      let res ← writeAt s.1 i l
      return (res, l)) (zero t.unsigned, 0)
    return r.1

/-- `SetBeforeFirst` (emu128-inl.h:2845-2848). -/
def SetBeforeFirst (t : Ty) (N : Nat) (m : List Int) : M (List Int) := do
  MaskNot t N (← SetAtOrAfterFirst t N m)

/-- `static_cast<TU>(-static_cast<TI>(mask.bits[i] == 0))` (emu128-inl.h:2862, 2878). -/
def isZeroMask (t : Ty) (x : Int) : M Val := do
  let n ← neg (cast t.signed ⟨u8, if x = 0 then 1 else 0⟩)
  return cast t.unsigned n

/-- `SetOnlyFirst` (emu128-inl.h:2850-2865). -/
def SetOnlyFirst (t : Ty) (N : Nat) (m : List Int) : M (List Int) := do
  let r ← forN N (fun i (s : List Int × Int) => do
    let x ← readAt m i
    let res ← writeAt s.1 i (cast t.unsigned (band ⟨t.unsigned, x⟩ ⟨t.unsigned, s.2⟩)).v
    let z ← isZeroMask t x
    return (res, (cast t.unsigned (band ⟨t.unsigned, s.2⟩ z)).v))
    (zero t.unsigned, (cast t.unsigned (bnot ⟨t.unsigned, 0⟩)).v)
  return r.1

/-- `SetAtOrBeforeFirst` (emu128-inl.h:2867-2881). -/
def SetAtOrBeforeFirst (t : Ty) (N : Nat) (m : List Int) : M (List Int) := do
  let r ← forN N (fun i (s : List Int × Int) => do
    let x ← readAt m i
    let res ← writeAt s.1 i s.2
    let z ← isZeroMask t x
    return (res, (cast t.unsigned (band ⟨t.unsigned, s.2⟩ z)).v))
    (zero t.unsigned, (cast t.unsigned (bnot ⟨t.unsigned, 0⟩)).v)
  return r.1

/-! ### Compress, Expand -/

variable {α : Type}

/-- One loop of `Compress`: appends the lanes whose mask element is not zero (`want`) or zero. -/
def compressLoop (N : Nat) (v : List α) (m : List Int) (want : Bool) (s : List α × Nat) :
    M (List α × Nat) :=
  forN N (fun i (s : List α × Nat) => do
    let x ← readAt m i
    if decide (x ≠ 0) = want then do
      let e ← readAt v i
      let ret ← writeAt s.1 s.2 e
      return (ret, s.2 + 1)
    else .ok s) s

/-- `Compress` (emu128-inl.h:2703-2720); the final `HWY_DASSERT(count == N)` is modelled. `ret` is
default-initialised to `zero`. -/
def Compress (zero : α) (cap N : Nat) (v : List α) (m : List Int) : M (List α) := do
  let s ← compressLoop N v m true (List.replicate cap zero, 0)
  let s ← compressLoop N v m false s
  if s.2 = N then return s.1 else .error .ub

/-- `CompressNot` (emu128-inl.h:2763-2780). -/
def CompressNot (zero : α) (cap N : Nat) (v : List α) (m : List Int) : M (List α) := do
  let s ← compressLoop N v m false (List.replicate cap zero, 0)
  let s ← compressLoop N v m true s
  if s.2 = N then return s.1 else .error .ub

/-- `Expand` (emu128-inl.h:2731-2744), and `LoadExpand` (2747-2761) where the values come from memory. -/
def expandLoop (zero : α) (cap N : Nat) (src : List α) (m : List Int) : M (List α × Nat) :=
  forN N (fun i (s : List α × Nat) => do
    let x ← readAt m i
    if x ≠ 0 then do
      let e ← readAt src s.2
      let ret ← writeAt s.1 i e
      return (ret, s.2 + 1)
    else do
      let ret ← writeAt s.1 i zero
      return (ret, s.2)) (List.replicate cap zero, 0)
def Expand (zero : α) (cap N : Nat) (v : List α) (m : List Int) : M (List α) := do
  return (← expandLoop zero cap N v m).1
def LoadExpand (zero : α) (cap N : Nat) (m : List Int) (mem : List α) : M (List α) := do
  return (← expandLoop zero cap N mem m).1

/-- `CompressBits` (emu128-inl.h:2788-2793). -/
def CompressBits (t : Ty) (zero : α) (N : Nat) (v : List α) (bits : List Int) : M (List α) := do
  Compress zero (cap t) N v (← LoadMaskBits t N bits)

/-- `CompressStore` (emu128-inl.h:2795-2808) and `CompressBlendedStore` (2810-2815): the memory after the
call and the number of elements written. -/
def CompressStore (N : Nat) (v : List α) (m : List Int) (mem : List α) : M (List α × Nat) :=
  compressLoop N v m true (mem, 0)

/-- `Store` / `StoreU` (emu128-inl.h:1437-1446): copies `N` lanes. -/
def StoreU (N : Nat) (v mem : List α) : M (List α) :=
  forN N (fun i mem => do writeAt mem i (← readAt v i)) mem

/-- `CompressBitsStore` (emu128-inl.h:2817-2824). -/
def CompressBitsStore (t : Ty) (zero : α) (N : Nat) (v : List α) (bits : List Int) (mem : List α) :
    M (List α × Nat) := do
  let mask ← LoadMaskBits t N bits
  let mem ← StoreU N (← Compress zero (cap t) N v mask) mem
  return (mem, ← CountTrue N mask)

end Emu
end Hwy
