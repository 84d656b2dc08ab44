import Verif.Basic
import Mathlib.Tactic.Ring
import Mathlib.Data.Nat.Find
import Mathlib.Data.List.Basic

/-!
# Model of `hwy/bit_set.h`

`uint64_t` is `BitVec 64`.  `size_t` arguments are `Nat`; every use as a shift count is checked
(`i < 64`) because a larger count is undefined behaviour in C++.
-/

namespace Hwy

/-- `__builtin_ctz*` / `_BitScanForward*`: index of the lowest set bit, found by scanning upward
from bit `i`, with `fuel` bits left (base.h:2750-2785; the intrinsic itself is trusted to find the
lowest set bit).  Returns `i + fuel` when no bit is set; callers must exclude that. -/
def ctzFrom {w : Nat} (x : BitVec w) : Nat → Nat → Nat
  | i, 0 => i
  | i, fuel + 1 => if x.getLsbD i then i else ctzFrom x (i + 1) fuel

/-- Count trailing zeros intrinsic. -/
def ctz {w : Nat} (x : BitVec w) : Nat := ctzFrom x 0 w

/-- `Num0BitsBelowLS1Bit_Nonzero64` (base.h:2761-2784); undefined for 0. -/
def num0BitsBelowLS1Bit_Nonzero64 (x : BitVec 64) : M Nat :=
  if x = 0 then .error .ub else .ok (ctz x)

/-- Popcount intrinsic `__builtin_popcountll` (base.h:2846): number of set bits. The portable
fallback is modelled and proved equal to this in `Verif.BaseBitsSpec`. -/
def popCountW {w : Nat} (x : BitVec w) : Nat :=
  ((List.range w).filter (fun i => x.getLsbD i)).length

/-! ## BitSet64 (bit_set.h:27-80) -/

/-- `class BitSet64`, its only member `bits_` (bit_set.h:27-80). -/
structure BitSet64 where
  bits : BitVec 64 := 0
  deriving DecidableEq

namespace BitSet64

/-- `Get` (bit_set.h:46-49). -/
def get (s : BitSet64) (i : Nat) : M Bool :=
  if i < 64 then .ok (decide (s.bits &&& ((1#64) <<< i) ≠ 0)) else .error .ub

/-- `Set` (bit_set.h:31-35). -/
def set (s : BitSet64) (i : Nat) : M BitSet64 :=
  if i < 64 then .ok ⟨s.bits ||| ((1#64) <<< i)⟩ else .error .ub

/-- `SetNonzeroBitsFrom64` (bit_set.h:38). -/
def setNonzeroBitsFrom64 (s : BitSet64) (bits : BitVec 64) : BitSet64 := ⟨s.bits ||| bits⟩

/-- `Clear` (bit_set.h:41-44). -/
def clear (s : BitSet64) (i : Nat) : M BitSet64 :=
  if i < 64 then .ok ⟨s.bits &&& ~~~((1#64) <<< i)⟩ else .error .ub

/-- `Any` (bit_set.h:52). -/
def any (s : BitSet64) : Bool := decide (s.bits ≠ 0)

/-- `First` (bit_set.h:55-58). -/
def first (s : BitSet64) : M Nat := num0BitsBelowLS1Bit_Nonzero64 s.bits

/-- `Get64` (bit_set.h:61). -/
def get64 (s : BitSet64) : BitVec 64 := s.bits

/-- The loop of `Foreach` (bit_set.h:67-74): the functor is an arbitrary state transformer that may
itself fail. The `while` loop is given 65 iterations of fuel; running out is reported as a fault,
so theorems show it never happens. -/
def foreachLoop {σ : Type} (f : σ → Nat → M σ) : Nat → BitVec 64 → σ → M σ
  | 0, _, _ => .error .abort
  | fuel + 1, rem, st =>
    if rem = 0 then .ok st
    else do
      let i ← num0BitsBelowLS1Bit_Nonzero64 rem
      let rem := rem &&& (rem - 1)
      let st ← f st i
      foreachLoop f fuel rem st

/-- `Foreach` (bit_set.h:65-73). -/
def foreach {σ : Type} (s : BitSet64) (f : σ → Nat → M σ) (st : σ) : M σ :=
  foreachLoop f 65 s.bits st

/-- `Count` (bit_set.h:75). -/
def count (s : BitSet64) : Nat := popCountW s.bits

end BitSet64

/-! ## BitSet4096 (bit_set.h:83-155) -/

/-- `class BitSet4096<kMaxSize>`: `nonzero_` and `bits_[kMaxSize / 64]` (bit_set.h:83,152-154). -/
structure BitSet4096 where
  nonzero : BitSet64 := {}
  bits : List BitSet64

namespace BitSet4096

/-- Default construction for a given `kMaxSize` (bit_set.h:152-154). -/
def empty (kMaxSize : Nat) : BitSet4096 := { bits := List.replicate (kMaxSize / 64) {} }

/-- `Set` (bit_set.h:86-93). -/
def set (s : BitSet4096) (i : Nat) : M BitSet4096 := do
  let idx := i / 64
  let mod := i % 64
  let w ← readAt s.bits idx
  let w ← w.set mod
  let bits ← writeAt s.bits idx w
  let nz ← s.nonzero.set idx
  return { nonzero := nz, bits := bits }

/-- `SetNonzeroBitsFrom64` (bit_set.h:97-100). -/
def setNonzeroBitsFrom64 (s : BitSet4096) (b : BitVec 64) : M BitSet4096 := do
  let w ← readAt s.bits 0
  let bits ← writeAt s.bits 0 (w.setNonzeroBitsFrom64 b)
  if b ≠ 0 then
    let nz ← s.nonzero.set 0
    return { nonzero := nz, bits := bits }
  else
    return { nonzero := s.nonzero, bits := bits }

/-- `Clear` (bit_set.h:102-111). -/
def clear (s : BitSet4096) (i : Nat) : M BitSet4096 := do
  let idx := i / 64
  let mod := i % 64
  let w ← readAt s.bits idx
  let w ← w.clear mod
  let bits ← writeAt s.bits idx w
  let w' ← readAt bits idx
  if w'.any = false then
    let nz ← s.nonzero.clear idx
    return { nonzero := nz, bits := bits }
  else
    return { nonzero := s.nonzero, bits := bits }

/-- `Get` (bit_set.h:113-118). -/
def get (s : BitSet4096) (i : Nat) : M Bool := do
  let w ← readAt s.bits (i / 64)
  w.get (i % 64)

/-- `Any` (bit_set.h:121). -/
def any (s : BitSet4096) : Bool := s.nonzero.any

/-- `First` (bit_set.h:124-128). -/
def first (s : BitSet4096) : M Nat := do
  let idx ← s.nonzero.first
  let w ← readAt s.bits idx
  let m ← w.first
  return idx * 64 + m

/-- `Get64` (bit_set.h:131). -/
def get64 (s : BitSet4096) : M (BitVec 64) := do
  let w ← readAt s.bits 0
  return w.get64

/-- `Foreach` (bit_set.h:136-141). -/
def foreach {σ : Type} (s : BitSet4096) (f : σ → Nat → M σ) (st : σ) : M σ :=
  s.nonzero.foreach (fun st idx => do
    let w ← readAt s.bits idx
    w.foreach (fun st mod => f st (idx * 64 + mod)) st) st

/-- `Count` (bit_set.h:143-148). -/
def count (s : BitSet4096) : M Nat :=
  s.nonzero.foreach (fun total idx => do
    let w ← readAt s.bits idx
    return total + w.count) 0

end BitSet4096
end Hwy
