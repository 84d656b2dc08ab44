import Verif.X86First
import Verif.X86Conv

/-!
# Reductions on the x86 128-bit targets

`generic_ops-inl.h:911-1140` together with the specialisations of `x86_128-inl.h:13637-13710`, and the 8-bit `Reverse2/4/8` of
`generic_ops-inl.h:6760-6816` they use. `w` bits per lane, `sz` bytes per vector.
-/

namespace Hwy.X86

/-! ## `Reverse2/4/8` of bytes -/

/-- 8-bit `Reverse2`, `generic_ops-inl.h:6779-6791`. -/
def Reverse2x8 (t : Tgt) (v : M128) : M128 :=
  if t.val = HWY_SSE2 then RotateRight 16 8 v
  else TableLookupBytes t v (ofBytes [1, 0, 3, 2, 5, 4, 7, 6, 9, 8, 11, 10, 13, 12, 15, 14])
/-- 8-bit `Reverse4`, `generic_ops-inl.h:6793-6804`. -/
def Reverse4x8 (t : Tgt) (sz : Nat) (v : M128) : M128 :=
  if t.val = HWY_SSE2 then Reverse2 t 16 sz (Reverse2x8 t v)
  else TableLookupBytes t v (ofBytes [3, 2, 1, 0, 7, 6, 5, 4, 11, 10, 9, 8, 15, 14, 13, 12])
/-- 8-bit `Reverse8`, `generic_ops-inl.h:6806-6816`. -/
def Reverse8x8 (t : Tgt) (sz : Nat) (v : M128) : M128 :=
  if t.val = HWY_SSE2 then Reverse2 t 32 sz (Reverse4x8 t sz v)
  else TableLookupBytes t v (ofBytes [7, 6, 5, 4, 3, 2, 1, 0, 15, 14, 13, 12, 11, 10, 9, 8])
/-- `Reverse2` of any lane size. -/
def Rev2 (t : Tgt) (w sz : Nat) (v : M128) : M128 := if w = 8 then Reverse2x8 t v else Reverse2 t w sz v
/-- `Reverse4` of any lane size. -/
def Rev4 (t : Tgt) (w sz : Nat) (v : M128) : M128 := if w = 8 then Reverse4x8 t sz v else Reverse4 t w sz v
/-- `Reverse8` of any lane size. -/
def Rev8 (t : Tgt) (w sz : Nat) (v : M128) : M128 := if w = 8 then Reverse8x8 t sz v else Reverse8 t v

/-! ## The generic reductions -/

/-- `detail::AddFunc`, `MinFunc`, `MaxFunc`, `generic_ops-inl.h:927-946`. -/
inductive RFunc | add | min | max
  deriving DecidableEq, Repr
/-- The call operator of the three functors for lanes of `w` bits, `generic_ops-inl.h:927-946`. -/
def RFunc.call (t : Tgt) (signed : Bool) (w : Nat) : RFunc → M128 → M128 → M128
  | .add, a, b => Add w a b
  | .min, a, b => if signed then MinI t w a b else MinU t w a b
  | .max, a, b => if signed then MaxI t w a b else MaxU t w a b
/-- `detail::ReduceWithinBlocks` of two, four or eight lanes, `generic_ops-inl.h:966-986`. -/
def ReduceWithinBlocks8 (t : Tgt) (signed : Bool) (f : RFunc) (w sz : Nat) (v : M128) : M128 :=
  let kN := sz / (w / 8)
  if kN = 2 then f.call t signed w v (Rev2 t w sz v)
  else if kN = 4 then
    let v0123 := Rev4 t w sz v
    let v03_12_12_03 := f.call t signed w v v0123
    let v12_03_03_12 := Rev2 t w sz v03_12_12_03
    f.call t signed w v03_12_12_03 v12_03_03_12
  else
    let v34_25_16_07 := f.call t signed w v (Rev8 t w sz v)
    let v0347_1625_1625_0347 := f.call t signed w v34_25_16_07 (Rev4 t w sz v34_25_16_07)
    f.call t signed w v0347_1625_1625_0347 (Rev2 t w sz v0347_1625_1625_0347)
/-- `detail::ReduceWithinBlocks`, `generic_ops-inl.h:966-1020`: sixteen bytes are first reduced to eight 16-bit lanes. -/
def ReduceWithinBlocks (t : Tgt) (signed : Bool) (f : RFunc) (w sz : Nat) (v : M128) : M128 :=
  if sz / (w / 8) = 16 then
    let even := if signed then ShiftRightI t 16 8 (ShiftLeft 16 8 v) else And v (set 16 0xFF#16)
    let odd := if signed then ShiftRightI t 16 8 v else ShiftRightU 16 8 v
    let reduced := ReduceWithinBlocks8 t signed f 16 16 (f.call t signed 16 even odd)
    DupEven t 8 16 reduced
  else ReduceWithinBlocks8 t signed f w sz v

/-! ## `SumOfLanes` -/

/-- `SumOfLanes`, `generic_ops-inl.h:1021-1026, 1070-1073` and, for eight and sixteen unsigned bytes, `x86_128-inl.h:13649-13660`. -/
def SumOfLanes (t : Tgt) (signed : Bool) (w sz : Nat) (v : M128) : M128 :=
  if sz / (w / 8) = 1 then v
  else if signed = false ∧ w = 8 ∧ sz = 8 then set 8 (BitVec.setWidth 8 (lane 64 0 (SumsOf8U v)))
  else if signed = false ∧ w = 8 ∧ sz = 16 then
    let sums := SumsOf8U v
    let sums := ReduceWithinBlocks t false .add 64 16 sums
    Broadcast t 8 0 sums
  else ReduceWithinBlocks t signed .add w sz v

/-! ## `MinOfLanes` and `MaxOfLanes` -/

/-- `PHMINPOSUW` (SSE4.1): the minimum of the eight unsigned words in word 0, its first index in word 1, zero elsewhere. -/
def minpos (v : M128) : M128 :=
  let m := (List.range 8).foldl (fun m j => Nat.min m (lane 16 j v).toNat) 0xFFFF
  mk 16 (fun i => if i = 0 then BitVec.ofNat 16 m
    else if i = 1 then BitVec.ofNat 16 ((List.range 8).findIdx (fun j => (lane 16 j v).toNat = m)) else 0#16)
/-- `MinOfLanes` of eight unsigned words, SSE4 and better, `x86_128-inl.h:13672-13675`. -/
def MinOf16x8 (t : Tgt) (v : M128) : M128 := Broadcast t 16 0 (minpos v)
/-- `MinOfLanes` of eight bytes, `x86_128-inl.h:13683-13687`. -/
def MinOf8x8 (t : Tgt) (v : M128) : M128 := TruncateTo t 16 8 8 (MinOf16x8 t (PromoteTo t false 8 16 v))
/-- `MinOfLanes` of sixteen bytes, `x86_128-inl.h:13688-13694`. -/
def MinOf8x16 (t : Tgt) (v : M128) : M128 :=
  let result := MinU t 8 (MinOf8x8 t (UpperHalf t 8 8 v)) (MinOf8x8 t (LowerHalf v))
  Combine 16 result result
/-- `MinOfLanes`, `generic_ops-inl.h:1027-1032, 1074-1077` and the specialisations above. -/
def MinOfLanes (t : Tgt) (signed : Bool) (w sz : Nat) (v : M128) : M128 :=
  if sz / (w / 8) = 1 then v
  else if t.val ≤ HWY_SSE4 ∧ signed = false ∧ w = 16 ∧ sz = 16 then MinOf16x8 t v
  else if t.val ≤ HWY_SSE4 ∧ signed = false ∧ w = 8 ∧ sz = 8 then MinOf8x8 t v
  else if t.val ≤ HWY_SSE4 ∧ signed = false ∧ w = 8 ∧ sz = 16 then MinOf8x16 t v
  else ReduceWithinBlocks t signed .min w sz v
/-- `MaxOfLanes`, `generic_ops-inl.h:1033-1038, 1078-1081`; `x86_128-inl.h:13677-13681, 13696-13706`: `max - min(max - v)`. -/
def MaxOfLanes (t : Tgt) (signed : Bool) (w sz : Nat) (v : M128) : M128 :=
  if sz / (w / 8) = 1 then v
  else if t.val ≤ HWY_SSE4 ∧ signed = false ∧ ((w = 16 ∧ sz = 16) ∨ (w = 8 ∧ sz = 8) ∨ (w = 8 ∧ sz = 16)) then
    let m := set w (BitVec.allOnes w)
    Sub w m (MinOfLanes t false w sz (Sub w m v))
  else ReduceWithinBlocks t signed .max w sz v

/-! ## `ReduceSum`, `ReduceMin`, `ReduceMax` -/

/-- `ReduceSum`, `generic_ops-inl.h:1040-1043, 1057-1060, 1093-1097`: four bytes are promoted to 16 bits first. -/
def ReduceSum (t : Tgt) (signed : Bool) (w sz : Nat) (v : M128) : BitVec w :=
  if sz / (w / 8) = 1 then lane w 0 v
  else if w = 8 ∧ sz = 4 then BitVec.setWidth w (lane 16 0 (SumOfLanes t signed 16 8 (PromoteTo t signed 8 16 v)))
  else lane w 0 (SumOfLanes t signed w sz v)
/-- `ReduceMin`, `generic_ops-inl.h:1044-1047, 1061-1064, 1108-1112`. -/
def ReduceMin (t : Tgt) (signed : Bool) (w sz : Nat) (v : M128) : BitVec w :=
  if sz / (w / 8) = 1 then lane w 0 v
  else if w = 8 ∧ sz = 4 then BitVec.setWidth w (lane 16 0 (MinOfLanes t signed 16 8 (PromoteTo t signed 8 16 v)))
  else lane w 0 (MinOfLanes t signed w sz v)
/-- `ReduceMax`, `generic_ops-inl.h:1048-1051, 1065-1068, 1113-1117`. -/
def ReduceMax (t : Tgt) (signed : Bool) (w sz : Nat) (v : M128) : BitVec w :=
  if sz / (w / 8) = 1 then lane w 0 v
  else if w = 8 ∧ sz = 4 then BitVec.setWidth w (lane 16 0 (MaxOfLanes t signed 16 8 (PromoteTo t signed 8 16 v)))
  else lane w 0 (MaxOfLanes t signed w sz v)
/-- `MaskedReduceSum`, `generic_ops-inl.h:1127-1130`. -/
def MaskedReduceSum (t : Tgt) (signed : Bool) (w sz : Nat) (m v : M128) : BitVec w := ReduceSum t signed w sz (IfThenElseZero m v)
/-- `MaskedReduceMin`, `generic_ops-inl.h:1131-1135`. -/
def MaskedReduceMin (t : Tgt) (signed : Bool) (w sz : Nat) (m v : M128) : BitVec w :=
  ReduceMin t signed w sz (IfThenElse t m v (set w (if signed then BitVec.intMax w else BitVec.allOnes w)))
/-- `MaskedReduceMax`, `generic_ops-inl.h:1136-1140`. -/
def MaskedReduceMax (t : Tgt) (signed : Bool) (w sz : Nat) (m v : M128) : BitVec w :=
  ReduceMax t signed w sz (IfThenElse t m v (set w (if signed then BitVec.intMin w else 0#w)))

end Hwy.X86
