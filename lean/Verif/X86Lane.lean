import Verif.X86Pairwise
import Verif.X86V256Ops
import Verif.X86V256

/-!
# `ExtractLane` and `InsertLane` on the x86 targets

`sz` is the size of a vector in bytes, `w` the lane width in bits; `flt` selects `float` (`w = 32`) and `double` (`w = 64`) lanes.
`isConst` is the outcome of `__builtin_constant_p(i)`: a compile-time index selects the special case `detail::…<kLane>`. `BitCast`,
`RebindMask` and `BitCastScalar` do not change the bits. `HWY_ARCH_X86_32` and AVX3 are not modelled. `Store` followed by `lanes[i]`
is lane `i`.
-/

namespace Hwy.X86

/-- `PEXTRB/W/D/Q`, `EXTRACTPS`, and (lane 0) `MOVD`, `MOVQ`, `MOVSS`, `MOVSD` to a scalar (Intel SDM): lane `k`. -/
def pextr (w k : Nat) (v : M128) : BitVec w := lane w k v
/-- `PINSRB/W/D/Q` (Intel SDM): lane `k` becomes `x`. -/
def pinsr (w k : Nat) (x : BitVec w) (v : M128) : M128 := mk w (fun j => if j = k then x else lane w j v)
/-- `INSERTPS` (`_mm_insert_ps`, Intel SDM): bits 7:6 of `imm` select the source lane, bits 5:4 the destination, bits 3:0 the lanes to
be cleared. -/
def insertPs (v s : M128) (imm : Nat) : M128 :=
  mk 32 (fun j => if (imm >>> j) % 2 = 1 then 0#32 else if j = imm >>> 4 % 4 then lane 32 (imm >>> 6 % 4) s else lane 32 j v)

/-- `GetLane`, `x86_128-inl.h:381-416`: lane 0. -/
def GetLane (w : Nat) (v : M128) : BitVec w := pextr w 0 v

/-- `detail::ExtractLane<kLane>`, `x86_128-inl.h:6380-6447`. -/
def ExtractLaneConst (t : Tgt) (flt : Bool) (w k : Nat) (v : M128) : BitVec w :=
  if w = 8 then
    if HWY_SSSE3 ≤ t.val then
      let pair := pextr 16 (k / 2) v
      ((pair >>> (if k % 2 = 1 then 8 else 0)) &&& 0xFF#16).setWidth w
    else pextr w k v
  else if w = 16 then pextr w k v
  else if w = 32 then
    if HWY_SSSE3 ≤ t.val then pextr w 0 (if k = 0 then v else if flt then shufflePs v v k else shuffle32 v k) else pextr w k v
  else if flt then if k = 0 then GetLane w v else GetLane w (UpperHalf t 64 8 v)
  else if HWY_SSSE3 ≤ t.val then pextr w 0 (if k = 0 then v else shuffle32 v 0xEE) else pextr w k v
/-- `ExtractLane(v, i)`, `x86_128-inl.h:6453-6576`: the overload for a single lane, and those for 2 to 16 lanes. -/
def ExtractLane (t : Tgt) (isConst flt : Bool) (w sz : Nat) (v : M128) (i : Nat) : BitVec w :=
  if sz = w / 8 then GetLane w v
  else if isConst then ExtractLaneConst t flt w i v
  else lane w i v

/-- `detail::InsertLaneUsingBroadcastAndBlend`, `x86_128-inl.h:6582-6597`. -/
def InsertLaneUsingBroadcastAndBlend (t : Tgt) (flt : Bool) (w : Nat) (v : M128) (i : Nat) (x : BitVec w) : M128 :=
  let mask := Eq t w (Iota w 0#w) (set w (BitVec.ofNat w i))
  if flt then IfThenElseF t w mask (set w x) v else IfThenElse t mask (set w x) v
/-- `detail::InsertLane<kLane>`, `x86_128-inl.h:6599-6674`. -/
def InsertLaneConst (t : Tgt) (flt : Bool) (w k : Nat) (v : M128) (x : BitVec w) : M128 :=
  if w = 8 then if HWY_SSSE3 ≤ t.val then InsertLaneUsingBroadcastAndBlend t flt w v k x else pinsr w k x v
  else if w = 16 then pinsr w k x v
  else if w = 32 then
    if HWY_SSSE3 ≤ t.val then InsertLaneUsingBroadcastAndBlend t flt w v k x
    else if flt then insertPs v (mk w (fun j => if j = 0 then x else 0#w)) (k <<< 4) else pinsr w k x v
  else if flt ∨ HWY_SSSE3 ≤ t.val then
    let vt := set w x
    if k = 0 then shufflePd vt v 2 else shufflePd v vt 0
  else pinsr w k x v
/-- `InsertLane(v, i, t)`, `x86_128-inl.h:6681-6809`: the overload for a single lane, and those for 2 to 16 lanes. -/
def InsertLane (t : Tgt) (isConst flt : Bool) (w sz : Nat) (v : M128) (i : Nat) (x : BitVec w) : M128 :=
  if sz = w / 8 then set w x
  else if isConst then InsertLaneConst t flt w i v x
  else InsertLaneUsingBroadcastAndBlend t flt w v i x

namespace V256

/-- `ExtractLane` of a 256-bit vector, `x86_256-inl.h:4098-4113`; `constBlk` is the outcome of `__builtin_constant_p(i < kLanesPerBlock)`
and `isConst` that of `__builtin_constant_p(i)` in the 128-bit function called then. -/
def ExtractLaneQ (constBlk isConst flt : Bool) (w : Nat) (v : M256) (i : Nat) : BitVec w :=
  let kLanesPerBlock := 16 / (w / 8)
  if constBlk ∧ i < kLanesPerBlock then X86.ExtractLane .avx2 isConst flt w 16 (LowerHalf v) i
  else lane256 w i v
/-- `InsertLane` of a 256-bit vector, `x86_256-inl.h:4116-4120`, `x86_128-inl.h:6582-6597`. -/
def InsertLaneQ (flt : Bool) (w : Nat) (v : M256) (i : Nat) (x : BitVec w) : M256 :=
  let mask := EqQ w (Iota w 0#w) (setQ w (BitVec.ofNat w i))
  if flt then IfThenElseF w mask (setQ w x) v else IfThenElse mask (setQ w x) v

end V256
end Hwy.X86
