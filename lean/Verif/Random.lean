import Verif.VecOps
import Mathlib.Algebra.Order.Field.Basic
import Mathlib.Algebra.Order.Ring.Rat
import Mathlib.Algebra.Field.Rat

/-!
# Model of hwy/contrib/random/random-inl.h

Words are `BitVec 64`; a vector of `L` lanes is a list of `L` words; an array is a list, storing
outside it is undefined behaviour (`Fault.ub`, see `VecOps`).

Simplifications: `AlignedNDArray state_` of shape `4 × L` is four rows of `L` words (its allocation is
C09/C10); doubles are the rationals they denote, the rounding of each floating-point operation is a
parameter `rnd` that is the identity on doubles.
-/

namespace Hwy
namespace Rnd

/-- `std::uint64_t`. -/
abbrev W := BitVec 64

/-- `kJump` (random-inl.h:50-51). -/
def kJump : List W := [0x180ec6d33cfd0aba#64, 0xd5a61266f0c9392c#64, 0xa9582618e03fc9aa#64, 0x39abdc4529b1661c#64]

/-- `kLongJump` (random-inl.h:53-54). -/
def kLongJump : List W := [0x76e15d3efefdcbbf#64, 0xc5004e441c522fb3#64, 0x77710069854ee241#64, 0x39109bb02acbe635#64]

/-- `SplitMix64::operator()` (random-inl.h:62-67): new state and result. -/
def splitMixNext (state : W) : W × W :=
  let state := state + 0x9e3779b97f4a7c15#64
  let z := state
  let z := (z ^^^ (z >>> 30)) * 0xbf58476d1ce4e5b9#64
  let z := (z ^^^ (z >>> 27)) * 0x94d049bb133111eb#64
  (state, z ^^^ (z >>> 31))

/-- `Xoshiro::state_` (random-inl.h:125). -/
structure St where
  s0 : W
  s1 : W
  s2 : W
  s3 : W
deriving DecidableEq, Repr

/-- `Xoshiro(seed)` (random-inl.h:75-81). -/
def Xoshiro.ofSeed (seed : W) : St :=
  let (m, a) := splitMixNext seed
  let (m, b) := splitMixNext m
  let (m, c) := splitMixNext m
  let (_, d) := splitMixNext m
  ⟨a, b, c, d⟩

/-- `Xoshiro::Rotl` (random-inl.h:127-129). -/
def rotl (x : W) (k : Nat) : W := (x <<< k) ||| (x >>> (64 - k))

/-- `Xoshiro::Next` (random-inl.h:131-145): new state and result. -/
def Xoshiro.next (s : St) : St × W :=
  let result := rotl (s.s0 + s.s3) 23 + s.s0
  let t := s.s1 <<< 17
  let s2 := s.s2 ^^^ s.s0
  let s3 := s.s3 ^^^ s.s1
  let s1 := s.s1 ^^^ s2
  let s0 := s.s0 ^^^ s3
  let s2 := s2 ^^^ t
  let s3 := rotl s3 45
  (⟨s0, s1, s2, s3⟩, result)

/-- The inner loop of `Xoshiro::Jump(jumpArray)` (random-inl.h:154-162), `n` iterations from bit
`b` on; `acc` is `(s0, s1, s2, s3)`, `s` is `state_`. -/
def Xoshiro.jumpWord (i : W) : Nat → Nat → St → St → St × St
  | 0, _, acc, s => (acc, s)
  | n + 1, b, acc, s =>
    let acc := if i &&& (1#64 <<< b) ≠ 0 then
        ⟨acc.s0 ^^^ s.s0, acc.s1 ^^^ s.s1, acc.s2 ^^^ s.s2, acc.s3 ^^^ s.s3⟩
      else acc
    Xoshiro.jumpWord i n (b + 1) acc (Xoshiro.next s).1

/-- The outer loop of `Xoshiro::Jump(jumpArray)` (random-inl.h:153). -/
def Xoshiro.jumpWords : List W → St → St → St × St
  | [], acc, s => (acc, s)
  | i :: rest, acc, s =>
    let (acc, s) := Xoshiro.jumpWord i 64 0 acc s
    Xoshiro.jumpWords rest acc s

/-- `Xoshiro::Jump(jumpArray)` (random-inl.h:147-168). -/
def Xoshiro.jumpWith (jumpArray : List W) (s : St) : St :=
  (Xoshiro.jumpWords jumpArray ⟨0, 0, 0, 0⟩ s).1

/-- `Xoshiro::Jump()` (random-inl.h:116). -/
def Xoshiro.jump (s : St) : St := Xoshiro.jumpWith kJump s

/-- `Xoshiro::LongJump()` (random-inl.h:122). -/
def Xoshiro.longJump (s : St) : St := Xoshiro.jumpWith kLongJump s

/-- A loop that applies `f` `n` times. -/
def times {α : Type} (f : α → α) : Nat → α → α
  | 0, a => a
  | n + 1, a => times f n (f a)

/-- `Xoshiro(seed, thread_id)` (random-inl.h:83-89). -/
def Xoshiro.ofSeedThread (seed : W) (threadId : W) : St :=
  times Xoshiro.jump threadId.toNat (Xoshiro.ofSeed seed)

/-! ### Doubles -/

/-- `q` is a finite IEEE binary64 value. -/
def IsDouble (q : ℚ) : Prop :=
  ∃ m e : Int, |m| < 2 ^ 53 ∧ -1074 ≤ e ∧ e ≤ 971 ∧ q = m * (2 : ℚ) ^ e

/-- `kMulConst` (random-inl.h:39-46). -/
def kMulConst : ℚ := 1 / 9007199254740992

/-- `static_cast<double>(x >> 11) * kMulConst` (random-inl.h:95); `rnd` rounds the results of the
conversion and of the multiplication. -/
def toUniform (rnd : ℚ → ℚ) (x : W) : ℚ := rnd (rnd ((x >>> 11).toNat : ℚ) * kMulConst)

/-- `Xoshiro::Uniform` (random-inl.h:94-96). -/
def Xoshiro.uniform (rnd : ℚ → ℚ) (s : St) : St × ℚ :=
  let (s, x) := Xoshiro.next s
  (s, toUniform rnd x)

/-! ### VectorXoshiro -/

/-- `RotateRight<kBits>(v)` for `0 < kBits` (emu128-inl.h:514-525). -/
def rotateRight (kBits : Nat) (v : List W) : List W :=
  List.zipWith (· ||| ·) (v.map (fun x : W => x >>> kBits)) (v.map (fun x : W => x <<< min 63 (64 - kBits)))

/-- `Add`, `Xor`, `ShiftLeft<17>` on vectors (emu128-inl.h). -/
def vadd (a b : List W) : List W := List.zipWith (· + ·) a b
def vxor (a b : List W) : List W := List.zipWith (· ^^^ ·) a b
def vshl (k : Nat) (v : List W) : List W := v.map (fun x : W => x <<< k)
def vshr (k : Nat) (v : List W) : List W := v.map (fun x : W => x >>> k)

/-- `VectorXoshiro::state_`: four rows of `Lanes` words (random-inl.h:312). -/
structure VSt where
  r0 : List W
  r1 : List W
  r2 : List W
  r3 : List W
deriving DecidableEq, Repr

/-- The loop of the constructor that fills lane `i` and jumps (random-inl.h:192-198); rows grow by
one lane per iteration. -/
def VectorXoshiro.fill : Nat → St → VSt → VSt
  | 0, _, v => v
  | n + 1, x, v =>
    VectorXoshiro.fill n (Xoshiro.jump x)
      ⟨v.r0 ++ [x.s0], v.r1 ++ [x.s1], v.r2 ++ [x.s2], v.r3 ++ [x.s3]⟩

/-- `VectorXoshiro(seed, threadNumber)` on a target with `L` lanes of `u64` (random-inl.h:181-199). -/
def VectorXoshiro.make (L : Nat) (seed threadNumber : W) : VSt :=
  VectorXoshiro.fill L (times Xoshiro.longJump threadNumber.toNat (Xoshiro.ofSeed seed)) ⟨[], [], [], []⟩

/-- `VectorXoshiro::Update` (random-inl.h:315-326). -/
def VectorXoshiro.update (v : VSt) : VSt × List W :=
  let result := vadd (rotateRight 41 (vadd v.r0 v.r3)) v.r0
  let t := vshl 17 v.r1
  let s2 := vxor v.r2 v.r0
  let s3 := vxor v.r3 v.r1
  let s1 := vxor v.r1 s2
  let s0 := vxor v.r0 s3
  let s2 := vxor s2 t
  let s3 := rotateRight 19 s3
  (⟨s0, s1, s2, s3⟩, result)

/-- `VectorXoshiro::Next`, `operator()()` (random-inl.h:201, 328-340): loads, updates and stores
the state. -/
def VectorXoshiro.next (v : VSt) : VSt × List W := VectorXoshiro.update v

/-- The loop of `operator()(n)`, `operator()<N>()` and their `Uniform` versions
(random-inl.h:210-213, 229-232, 267-273, 294-300): `f` is applied to each generated vector before the
store.  `Lanes(real_tag) = Lanes(tag)`; `i` does not wrap, an array of `2^64` bytes does not exist. -/
def VectorXoshiro.fillLoop {β : Type} (f : List W → List β) (L n : Nat) :
    Nat → Nat → VSt → List β → M (VSt × List β)
  | 0, _, v, out => .ok (v, out)
  | fuel + 1, i, v, out =>
    if i < n then
      match Vec.storeU (f (VectorXoshiro.update v).2) out i with
      | .ok out => VectorXoshiro.fillLoop f L n fuel (i + L) (VectorXoshiro.update v).1 out
      | .error e => .error e
    else .ok (v, out)

/-- `operator()(n)` (random-inl.h:203-219) and `operator()<N>()` (random-inl.h:221-238): the array has
exactly `n` elements. -/
def VectorXoshiro.draw (L n : Nat) (v : VSt) : M (VSt × List W) :=
  VectorXoshiro.fillLoop id L n (n + 1) 0 v (List.replicate n 0)

/-- `Uniform()` (random-inl.h:248-254). -/
def VectorXoshiro.uniform (rnd : ℚ → ℚ) (v : VSt) : VSt × List ℚ :=
  let (v, x) := VectorXoshiro.next v
  let bits := vshr 11 x
  let real := bits.map (fun b => rnd (b.toNat : ℚ))
  (v, real.map (fun r => rnd (r * kMulConst)))

/-- `Uniform(n)` (random-inl.h:256-280) and `Uniform<N>()` (random-inl.h:282-307). -/
def VectorXoshiro.drawUniform (rnd : ℚ → ℚ) (L n : Nat) (v : VSt) : M (VSt × List ℚ) :=
  VectorXoshiro.fillLoop
    (fun next => ((vshr 11 next).map (fun b => rnd (b.toNat : ℚ))).map (fun r => rnd (r * kMulConst)))
    L n (n + 1) 0 v (List.replicate n 0)

/-! ### CachedXoshiro -/

/-- `CachedXoshiro<size>` (random-inl.h:343-377). -/
structure Cached where
  gen : VSt
  cache : List W
  index : Nat
deriving DecidableEq, Repr

/-- Constructor (random-inl.h:356-360). -/
def Cached.make (L size : Nat) (seed threadNumber : W) : M Cached := do
  let (g, c) ← VectorXoshiro.draw L size (VectorXoshiro.make L seed threadNumber)
  return ⟨g, c, 0⟩

/-- Refill when the cache is used up (random-inl.h:363-366). -/
def Cached.refill (L size : Nat) (c : Cached) : M Cached :=
  if c.index = size then do
    let (g, cache) ← VectorXoshiro.draw L size c.gen
    return ⟨g, cache, 0⟩
  else return c

/-- `operator()` (random-inl.h:362-368). -/
def Cached.next (L size : Nat) (c : Cached) : M (Cached × W) := do
  let c ← c.refill L size
  let x ← readAt c.cache c.index
  return ({ c with index := c.index + 1 }, x)

/-- `n` calls. -/
def Cached.draws (L size : Nat) : Nat → Cached → M (Cached × List W)
  | 0, c => .ok (c, [])
  | n + 1, c => do
    let (c, x) ← c.next L size
    let (c, xs) ← Cached.draws L size n c
    return (c, x :: xs)

end Rnd
end Hwy
