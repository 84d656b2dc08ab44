import Verif.VecOps
import Mathlib.Algebra.BigOperators.Group.List.Basic
import Mathlib.Algebra.Ring.Defs

/-!
# Model of hwy/contrib/dot/dot-inl.h

`R` is the accumulator type; its addition and multiplication are exact (a semiring).  `size_t` is `Nat`: the arrays fit in
memory, so `i + 4 * N` does not wrap.  `N` is `Lanes(d)`.
-/

namespace Hwy
namespace DotP

open Vec

/-- The `kAssumptions` template argument (dot-inl.h:40-51). -/
structure Assume where
  atLeastOne : Bool
  multiple : Bool
  padded : Bool
deriving DecidableEq, Repr

section
variable {R : Type} [Add R] [Mul R] [Zero R]

/-- `Zero(d)`. -/
def vzero (N : Nat) : List R := List.replicate N 0

/-- `MulAdd(a, b, s)`: `a * b + s` per lane. -/
def mulAdd (a b s : List R) : List R := List.zipWith (· + ·) (List.zipWith (· * ·) a b) s

/-- `Add(a, b)`. -/
def vadd (a b : List R) : List R := List.zipWith (· + ·) a b

/-- `ReduceSum(d, v)` (emu128-inl.h:2921-2928). -/
def reduceSum (v : List R) : R := v.foldl (· + ·) 0

/-- `IfThenElseZero(mask, v)`. -/
def ifThenElseZero {α : Type} (zero : α) (mask : List Bool) (v : List α) : List α :=
  List.zipWith (fun m x => if m then x else zero) mask v

/-- `IfThenZeroElse(mask, v)`. -/
def ifThenZeroElse {α : Type} (zero : α) (mask : List Bool) (v : List α) : List α :=
  List.zipWith (fun m x => if m then zero else x) mask v

/-- The four accumulators. -/
structure Sums (R : Type) where
  s0 : List R
  s1 : List R
  s2 : List R
  s3 : List R

/-- Reduction tree (dot-inl.h:147-151, 255-259, 351-355, 447-451). -/
def Sums.reduce (s : Sums R) : R :=
  let s0 := vadd s.s0 s.s1
  let s2 := vadd s.s2 s.s3
  let s0 := vadd s0 s2
  reduceSum s0

/-- Scalar loop, two accumulators (dot-inl.h:74-86, 180-192, 285-294): `mul i` is the product of elements `i`. The second
loop of line 189 runs at most once. -/
def scalarLoop (mul : Nat → M R) (num : Nat) : Nat → Nat → R → R → M R
  | 0, _, _, _ => .error .abort
  | fuel + 1, i, sum0, sum1 => do
    if i + 2 ≤ num then
      let p0 ← mul (i + 0)
      let p1 ← mul (i + 1)
      scalarLoop mul num fuel (i + 2) (sum0 + p0) (sum1 + p1)
    else if i < num then
      let p ← mul i
      return sum0 + (sum1 + p)
    else return sum0 + sum1

/-! ### Float overload (dot-inl.h:52-150) -/

/-- Main loop (dot-inl.h:99-116). -/
def float4 (N : Nat) (pa pb : List R) (num : Nat) : Nat → Nat → Sums R → M (Nat × Sums R)
  | 0, _, _ => .error .abort
  | fuel + 1, i, s =>
    if i + 4 * N ≤ num then do
      let a0 ← loadU N pa i
      let b0 ← loadU N pb i
      let i := i + N
      let s0 := mulAdd a0 b0 s.s0
      let a1 ← loadU N pa i
      let b1 ← loadU N pb i
      let i := i + N
      let s1 := mulAdd a1 b1 s.s1
      let a2 ← loadU N pa i
      let b2 ← loadU N pb i
      let i := i + N
      let s2 := mulAdd a2 b2 s.s2
      let a3 ← loadU N pa i
      let b3 ← loadU N pb i
      let i := i + N
      let s3 := mulAdd a3 b3 s.s3
      float4 N pa pb num fuel i ⟨s0, s1, s2, s3⟩
    else .ok (i, s)

/-- Whole vectors (dot-inl.h:119-123). -/
def float1 (N : Nat) (pa pb : List R) (num : Nat) : Nat → Nat → Sums R → M (Nat × Sums R)
  | 0, _, _ => .error .abort
  | fuel + 1, i, s =>
    if i + N ≤ num then do
      let a ← loadU N pa i
      let b ← loadU N pb i
      float1 N pa pb num fuel (i + N) { s with s0 := mulAdd a b s.s0 }
    else .ok (i, s)

/-- Remainder (dot-inl.h:125-145). -/
def floatRest (asm : Assume) (N : Nat) (pa pb : List R) (num i : Nat) (s : Sums R) : M (Sums R) :=
  if asm.multiple then .ok s
  else
    let remaining := num - i
    if remaining = 0 then .ok s
    else if asm.padded then do
      let mask := firstN N remaining
      let a ← loadU N pa i
      let b ← loadU N pb i
      return { s with s1 := mulAdd (ifThenElseZero 0 mask a) (ifThenElseZero 0 mask b) s.s1 }
    else if i < N then .error .ub
    else do
      let i := i + remaining - N
      let skip := firstN N (N - remaining)
      let a ← loadU N pa i
      let b ← loadU N pb i
      return { s with s1 := mulAdd (ifThenZeroElse 0 skip a) (ifThenZeroElse 0 skip b) s.s1 }

/-- `Dot::Compute` for float types (dot-inl.h:55-152). -/
def computeFloat (asm : Assume) (N : Nat) (pa pb : List R) (num : Nat) : M R := do
  if !asm.atLeastOne && !asm.multiple && !asm.padded && decide (num < N) then
    scalarLoop (fun i => do return (← readAt pa i) * (← readAt pb i)) num (num + 1) 0 0 0
  else
    let (i, s) ← float4 N pa pb num (num + 1) 0 ⟨vzero N, vzero N, vzero N, vzero N⟩
    let (i, s) ← float1 N pa pb num (num + 1) i s
    let s ← floatRest asm N pa pb num i s
    return s.reduce

/-! ### f32 * bf16 overload (dot-inl.h:153-260) -/

variable {β : Type}

/-- `PromoteLowerTo`, `PromoteUpperTo`. -/
def promoteLower (p : β → R) (v : List β) : List R := (v.take (v.length / 2)).map p
def promoteUpper (p : β → R) (v : List β) : List R := (v.drop (v.length / 2)).map p

/-- Main loop (dot-inl.h:208-223); absent on HWY_SCALAR. -/
def mixed4 (p : β → R) (N : Nat) (pa : List R) (pb : List β) (num : Nat) : Nat → Nat → Sums R → M (Nat × Sums R)
  | 0, _, _ => .error .abort
  | fuel + 1, i, s =>
    if i + 4 * N ≤ num then do
      let a0 ← loadU N pa i
      let b0 ← loadU (2 * N) pb i
      let i := i + N
      let s0 := mulAdd a0 (promoteLower p b0) s.s0
      let a1 ← loadU N pa i
      let i := i + N
      let s1 := mulAdd a1 (promoteUpper p b0) s.s1
      let a2 ← loadU N pa i
      let b2 ← loadU (2 * N) pb i
      let i := i + N
      let s2 := mulAdd a2 (promoteLower p b2) s.s2
      let a3 ← loadU N pa i
      let i := i + N
      let s3 := mulAdd a3 (promoteUpper p b2) s.s3
      mixed4 p N pa pb num fuel i ⟨s0, s1, s2, s3⟩
    else .ok (i, s)

/-- Whole vectors (dot-inl.h:227-231). -/
def mixed1 (p : β → R) (N : Nat) (pa : List R) (pb : List β) (num : Nat) : Nat → Nat → Sums R → M (Nat × Sums R)
  | 0, _, _ => .error .abort
  | fuel + 1, i, s =>
    if i + N ≤ num then do
      let a ← loadU N pa i
      let b ← loadU N pb i
      mixed1 p N pa pb num fuel (i + N) { s with s0 := mulAdd a (b.map p) s.s0 }
    else .ok (i, s)

/-- Remainder (dot-inl.h:233-253). -/
def mixedRest (p : β → R) (asm : Assume) (N : Nat) (pa : List R) (pb : List β) (num i : Nat) (s : Sums R) :
    M (Sums R) :=
  if asm.multiple then .ok s
  else
    let remaining := num - i
    if remaining = 0 then .ok s
    else if asm.padded then do
      let mask := firstN N remaining
      let a ← loadU N pa i
      let b ← loadU N pb i
      return { s with s1 := mulAdd (ifThenElseZero 0 mask a) (ifThenElseZero 0 mask (b.map p)) s.s1 }
    else if i < N then .error .ub
    else do
      let i := i + remaining - N
      let skip := firstN N (N - remaining)
      let a ← loadU N pa i
      let b ← loadU N pb i
      return { s with s1 := mulAdd (ifThenZeroElse 0 skip a) (ifThenZeroElse 0 skip (b.map p)) s.s1 }

/-- The main loop is compiled unless HWY_TARGET is HWY_SCALAR (dot-inl.h:206, 224). -/
def mixedMain (p : β → R) (scalar : Bool) (N : Nat) (pa : List R) (pb : List β) (num : Nat) (s : Sums R) :
    M (Nat × Sums R) :=
  if scalar then .ok (0, s) else mixed4 p N pa pb num (num + 1) 0 s

/-- `Dot::Compute` for f32 and bf16 (dot-inl.h:155-260). -/
def computeMixed (p : β → R) (scalar : Bool) (asm : Assume) (N : Nat) (pa : List R) (pb : List β) (num : Nat) : M R := do
  if !asm.atLeastOne && !asm.multiple && !asm.padded && decide (num < N) then
    scalarLoop (fun i => do return (← readAt pa i) * p (← readAt pb i)) num (num + 1) 0 0 0
  else
    let (i, s) ← mixedMain p scalar N pa pb num ⟨vzero N, vzero N, vzero N, vzero N⟩
    let (i, s) ← mixed1 p N pa pb num (num + 1) i s
    let s ← mixedRest p asm N pa pb num i s
    return s.reduce

/-! ### bf16 and i16 overloads (dot-inl.h:262-452) -/

/-- Type of `ReorderWidenMulAccumulate(d32, a, b, sum0, sum1)`: returns the new `sum0` and `sum1`. -/
abbrev Rwma (β R : Type) := List β → List β → List R → List R → List R × List R

/-- Even and odd lanes. -/
def evens : List β → List β
  | [] => []
  | [x] => [x]
  | x :: _ :: l => x :: evens l

def odds : List β → List β
  | [] => []
  | [_] => []
  | _ :: y :: l => y :: odds l

/-- `ReorderWidenMulAccumulate` (emu128-inl.h:2899-2905, generic_ops-inl.h:5502-5512). -/
def rwmaEvenOdd (p : β → R) : Rwma β R := fun a b sum0 sum1 =>
  (mulAdd ((evens a).map p) ((evens b).map p) sum0, mulAdd ((odds a).map p) ((odds b).map p) sum1)

/-- Main loop, two vectors (dot-inl.h:305-314, 401-410). -/
def wide2 (rwma : Rwma β R) (N : Nat) (pa pb : List β) (num : Nat) : Nat → Nat → Sums R → M (Nat × Sums R)
  | 0, _, _ => .error .abort
  | fuel + 1, i, s =>
    if i + 2 * N ≤ num then do
      let a0 ← loadU N pa i
      let b0 ← loadU N pb i
      let i := i + N
      let (s0, s1) := rwma a0 b0 s.s0 s.s1
      let a1 ← loadU N pa i
      let b1 ← loadU N pb i
      let i := i + N
      let (s2, s3) := rwma a1 b1 s.s2 s.s3
      wide2 rwma N pa pb num fuel i ⟨s0, s1, s2, s3⟩
    else .ok (i, s)

/-- Possibly one more vector (dot-inl.h:317-322, 413-418). -/
def wide1 (rwma : Rwma β R) (N : Nat) (pa pb : List β) (num i : Nat) (s : Sums R) : M (Nat × Sums R) :=
  if i + N ≤ num then do
    let a0 ← loadU N pa i
    let b0 ← loadU N pb i
    let (s0, s1) := rwma a0 b0 s.s0 s.s1
    return (i + N, { s with s0 := s0, s1 := s1 })
  else .ok (i, s)

/-- Remainder (dot-inl.h:324-349, 420-445). `zero` is the element with all bits zero. -/
def wideRest (zero : β) (rwma : Rwma β R) (asm : Assume) (N : Nat) (pa pb : List β) (num i : Nat) (s : Sums R) :
    M (Sums R) :=
  if asm.multiple then .ok s
  else
    let remaining := num - i
    if remaining = 0 then .ok s
    else if asm.padded then do
      let mask := firstN N remaining
      let va ← loadU N pa i
      let vb ← loadU N pb i
      let (s2, s3) := rwma (ifThenElseZero zero mask va) (ifThenElseZero zero mask vb) s.s2 s.s3
      return { s with s2 := s2, s3 := s3 }
    else if i < N then .error .ub
    else do
      let i := i + remaining - N
      let skip := firstN N (N - remaining)
      let va ← loadU N pa i
      let vb ← loadU N pb i
      let (s2, s3) := rwma (ifThenZeroElse zero skip va) (ifThenZeroElse zero skip vb) s.s2 s.s3
      return { s with s2 := s2, s3 := s3 }

/-- The vector part of both overloads (dot-inl.h:297-355, 393-451). `L` is the number of lanes of a sum. -/
def wideVec (zero : β) (rwma : Rwma β R) (asm : Assume) (N L : Nat) (pa pb : List β) (num : Nat) : M R := do
  let (i, s) ← wide2 rwma N pa pb num (num + 1) 0 ⟨vzero L, vzero L, vzero L, vzero L⟩
  let (i, s) ← wide1 rwma N pa pb num i s
  let s ← wideRest zero rwma asm N pa pb num i s
  return s.reduce

/-- `Dot::Compute` for bf16 (dot-inl.h:264-356). -/
def computeBF16 (p : β → R) (zero : β) (rwma : Rwma β R) (asm : Assume) (N L : Nat) (pa pb : List β) (num : Nat) :
    M R := do
  if !asm.atLeastOne && !asm.multiple && !asm.padded && decide (num < N) then
    scalarLoop (fun i => do return p (← readAt pa i) * p (← readAt pb i)) num (num + 1) 0 0 0
  else wideVec zero rwma asm N L pa pb num

end

/-- Result of a 32-bit signed operation: overflow is undefined. -/
def chk32 (x : Int) : M Int := if -2 ^ 31 ≤ x ∧ x < 2 ^ 31 then .ok x else .error .ub

/-- Scalar loop of the i16 overload in `int32_t` arithmetic (dot-inl.h:381-390). -/
def scalarLoop16 (pa pb : List (BitVec 16)) (num : Nat) : Nat → Nat → Int → Int → M Int
  | 0, _, _, _ => .error .abort
  | fuel + 1, i, sum0, sum1 => do
    if i + 2 ≤ num then
      let p0 ← chk32 ((← readAt pa (i + 0)).toInt * (← readAt pb (i + 0)).toInt)
      let sum0 ← chk32 (sum0 + p0)
      let p1 ← chk32 ((← readAt pa (i + 1)).toInt * (← readAt pb (i + 1)).toInt)
      let sum1 ← chk32 (sum1 + p1)
      scalarLoop16 pa pb num fuel (i + 2) sum0 sum1
    else if i < num then
      let p ← chk32 ((← readAt pa i).toInt * (← readAt pb i).toInt)
      let sum1 ← chk32 (sum1 + p)
      chk32 (sum0 + sum1)
    else chk32 (sum0 + sum1)

/-- `Dot::Compute` for i16 (dot-inl.h:360-452); vector sums wrap modulo 2^32. -/
def computeI16 (rwma : Rwma (BitVec 16) (BitVec 32)) (asm : Assume) (N L : Nat) (pa pb : List (BitVec 16)) (num : Nat) :
    M Int := do
  if !asm.atLeastOne && !asm.multiple && !asm.padded && decide (num < N) then
    scalarLoop16 pa pb num (num + 1) 0 0 0
  else
    let r ← wideVec 0#16 rwma asm N L pa pb num
    return r.toInt

end DotP
end Hwy
