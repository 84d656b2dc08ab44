import Verif.Basic

/-!
# Model of `hwy/aligned_allocator.{h,cc}`

Addresses and sizes are 64-bit (`size_t`/`uintptr_t`): naturals below `2 ^ 64`, sums reduced modulo
`2 ^ 64` wherever the C++ code could wrap.
-/

namespace Hwy
namespace Alloc

/-- `kAlignment`, `kAlias` (aligned_allocator.cc:30-47). -/
structure Cfg where
  align : Nat
  alias : Nat

/-- The three configurations of the source. -/
def Cfg.x86 : Cfg := ⟨128, 1024⟩
def Cfg.other : Cfg := ⟨128, 128⟩
def Cfg.riscv : Cfg := ⟨4096, 4096⟩

/-- `sizeof(AllocationHeader)` (aligned_allocator.cc:49-54), packed: pointer then `size_t`. -/
def kHeader : Nat := 16

/-- Wrapping 64-bit result. -/
def w64 (x : Nat) : Nat := x % 2 ^ 64

/-- `NextAlignedOffset` given the value returned by `fetch_add` (aligned_allocator.cc:57-65). -/
def nextAlignedOffset (c : Cfg) (next : Nat) : Nat := c.align * (next % (c.alias / c.align))

/-- `if (offset == 0) offset = RoundUpTo(sizeof(AllocationHeader), kAlignment)`
(aligned_allocator.cc:85-87). -/
def headerOffset (c : Cfg) (offset : Nat) : Nat :=
  if offset = 0 then (kHeader + c.align - 1) / c.align * c.align else offset

/-- `allocated_size` (aligned_allocator.cc:89). -/
def allocatedSize (c : Cfg) (offset payload : Nat) : Nat := w64 (c.alias + offset + payload)

/-- `aligned`, `payload` (aligned_allocator.cc:99-104): `~(kAlias - 1)` is `2^64 - 1 - (kAlias - 1)`. -/
def payloadAddr (c : Cfg) (allocated offset : Nat) : Nat :=
  w64 ((w64 (allocated + c.alias) &&& (2 ^ 64 - 1 - (c.alias - 1))) + offset)

/-- Byte-addressed memory. -/
abbrev Mem := Nat → Nat

/-- 8-byte little-endian store and load. -/
def store64 (m : Mem) (p v : Nat) : Mem :=
  fun a => if p ≤ a ∧ a < p + 8 then v / 256 ^ (a - p) % 256 else m a

def load64 (m : Mem) (p : Nat) : Nat :=
  m p + 256 * (m (p + 1) + 256 * (m (p + 2) + 256 * (m (p + 3) + 256 * (m (p + 4) +
    256 * (m (p + 5) + 256 * (m (p + 6) + 256 * m (p + 7)))))))

/-- Progress of one call to `AllocateAlignedBytes` and of the pointer it returns. The shared state
between concurrent calls is the atomic `next`, the heap and memory. -/
inductive Phase
  | idle
  /-- past `NextAlignedOffset`, lines 77-89 -/
  | reserved (size offset : Nat)
  /-- past `malloc`, lines 90-104 -/
  | mallocd (size offset base : Nat)
  /-- returned `p`; `base` is what the underlying allocator had returned -/
  | live (size offset base p : Nat)
  /-- `base` is what the underlying allocator had returned -/
  | freed (base : Nat)

structure State where
  next : Nat
  mem : Mem
  call : Nat → Phase
  /-- ghost: for every call that was freed, the pointer handed to `free`. -/
  freedWith : Nat → Option Nat

def init (m : Mem) : State := ⟨0, m, fun _ => .idle, fun _ => none⟩

/-- The block `[base, base + bytes)` currently owned by a call. -/
def Phase.block (c : Cfg) : Phase → Option (Nat × Nat)
  | .mallocd size offset base => some (base, allocatedSize c offset size)
  | .live size offset base _ => some (base, allocatedSize c offset size)
  | _ => none

def upd {β : Type} (f : Nat → β) (i : Nat) (x : β) : Nat → β := fun j => if j = i then x else f j

/-- One atomic step of any thread. -/
inductive Step (c : Cfg) : State → State → Prop
  /-- Lines 71-89: argument checks, `fetch_add`, offset. -/
  | reserve (s : State) (i size : Nat) (hi : s.call i = .idle) (h0 : size ≠ 0)
      (hbig : ¬ size ≥ (2 ^ 64 - 1) / 2) :
      Step c s { s with next := w64 (s.next + 1),
                        call := upd s.call i (.reserved size (headerOffset c (nextAlignedOffset c s.next))) }
  /-- Lines 90-96: the underlying allocator returns any block that does not wrap around the address
  space and is disjoint from all blocks it handed out and did not get back. -/
  | malloc (s : State) (i size offset base : Nat) (hi : s.call i = .reserved size offset)
      (hb0 : base ≠ 0) (hb : base + allocatedSize c offset size ≤ 2 ^ 64)
      (hd : ∀ j b n, (s.call j).block c = some (b, n) →
        b + n ≤ base ∨ base + allocatedSize c offset size ≤ b) :
      Step c s { s with call := upd s.call i (.mallocd size offset base) }
  /-- Lines 104-114: write the header, return the payload address. -/
  | header (s : State) (i size offset base : Nat) (hi : s.call i = .mallocd size offset base) :
      Step c s { s with
        mem := store64 (store64 s.mem (payloadAddr c base offset - kHeader) base)
                 (payloadAddr c base offset - kHeader + 8) size,
        call := upd s.call i (.live size offset base (payloadAddr c base offset)) }
  /-- The owner writes a byte of its payload. -/
  | write (s : State) (i size offset base p k v : Nat) (hi : s.call i = .live size offset base p)
      (hk : k < size) : Step c s { s with mem := fun a => if a = p + k then v else s.mem a }
  /-- `FreeAlignedBytes` (aligned_allocator.cc:117-131): reads the header, calls `free`. -/
  | free (s : State) (i size offset base p : Nat) (hi : s.call i = .live size offset base p) :
      Step c s { s with call := upd s.call i (.freed base),
                        freedWith := upd s.freedWith i (some (load64 s.mem (p - kHeader))) }

inductive Reach (c : Cfg) (m : Mem) : State → Prop
  | init : Reach c m (init m)
  | step {s s' : State} : Reach c m s → Step c s s' → Reach c m s'

/-- `AllocateAlignedBytes` argument checks (aligned_allocator.cc:71-75): abort for zero, null (`none`) for
sizes at or above `SIZE_MAX / 2`. -/
def checkSize (size : Nat) : M (Option Nat) :=
  if size = 0 then .error .abort
  else if size ≥ (2 ^ 64 - 1) / 2 then .ok none
  else .ok (some size)

/-- `ShiftCount` (aligned_allocator.h:177-179). -/
def shiftCount (n : Nat) : Nat := if n ≤ 1 then 0 else 1 + shiftCount (n / 2)
termination_by n
decreasing_by omega

/-- `AllocateAlignedItems` (aligned_allocator.h:181-196): the byte count passed on, `none` if it overflowed. -/
def itemsBytes (kSize items : Nat) : Option Nat :=
  let kIsPow2 := kSize &&& (kSize - 1) == 0
  let kBits := shiftCount kSize
  let bytes := if kIsPow2 then w64 (items <<< kBits) else w64 (items * kSize)
  let check := if kIsPow2 then bytes >>> kBits else bytes / kSize
  if check ≠ items then none else some bytes

/-! ### AlignedNDArray (aligned_allocator.h:326-424) -/

/-- `ComputeSizes` (aligned_allocator.h:412-422): suffix products, wrapping; entry `k` is the product of
`shape[k..]`, the last entry is 1. -/
def computeSizes : List Nat → List Nat
  | [] => [1]
  | d :: ds => w64 ((computeSizes ds).headD 1 * d) :: computeSizes ds

/-- `Offset` (aligned_allocator.h:398-406): `Σ memory_sizes_[k+1] * indices[k]`. -/
def offsetOf : List Nat → List Nat → Nat
  | _, [] => 0
  | ms, i :: is => w64 (ms.getD 1 0 * i + offsetOf ms.tail is)

/-- `memory_shape_` (aligned_allocator.h:338-343): innermost dimension rounded up to `VectorBytes()`. -/
def memoryShape (vb : Nat) (shape : List Nat) : List Nat :=
  shape.dropLast ++ [(shape.getLastD 0 + vb - 1) / vb * vb]

end Alloc
end Hwy
