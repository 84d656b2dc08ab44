import Verif.X86Lookup

/-!
# 256-bit registers of AVX2

A 256-bit register is a pair of 128-bit blocks. Most AVX2 instructions act on each block like their SSE
counterpart. Trusted semantics (Intel SDM vol. 2).
-/

namespace Hwy.X86

/-- A 256-bit register: its lower and upper 128-bit block. -/
structure M256 where
  lo : M128
  hi : M128

/-- Lane `i` of `w` bits. -/
def lane256 (w i : Nat) (r : M256) : BitVec w := if i < 128 / w then lane w i r.lo else lane w (i - 128 / w) r.hi

/-- An instruction of one operand that acts on each block. -/
def blk1 (f : M128 → M128) (a : M256) : M256 := ⟨f a.lo, f a.hi⟩
/-- An instruction of two operands that acts on each block. -/
def blk2 (f : M128 → M128 → M128) (a b : M256) : M256 := ⟨f a.lo b.lo, f a.hi b.hi⟩
/-- `VPMOVZX*` (`_mm256_cvtepu8_epi16` ...): zero-extends. -/
def cvtepu256 (f g : Nat) (a : M128) : M256 :=
  ⟨mk g (fun i => (lane f i a).setWidth g), mk g (fun i => (lane f (128 / g + i) a).setWidth g)⟩
/-- `VPMOVSX*` (`_mm256_cvtepi8_epi16` ...): sign-extends. -/
def cvtepi256 (f g : Nat) (a : M128) : M256 :=
  ⟨mk g (fun i => (lane f i a).signExtend g), mk g (fun i => (lane f (128 / g + i) a).signExtend g)⟩
/-- `VPERMQ` (`_mm256_permute4x64_epi64`). -/
def permute4x64 (a : M256) (imm : Nat) : M256 :=
  ⟨mk 64 (fun i => lane256 64 (imm >>> (2 * i) % 4) a), mk 64 (fun i => lane256 64 (imm >>> (2 * (i + 2)) % 4) a)⟩
/-- `_mm256_castsi256_si128`: the lower block. -/
def castsi256 (a : M256) : M128 := a.lo

/-- `VPSLLVD/Q` (`_mm_sllv_epi32/64`): the count of each lane is the lane of `c`; too large counts give zero. -/
def sllv (w : Nat) : M128 → M128 → M128 := map2 w (fun x c => x <<< c.toNat)
/-- `VPSRLVD/Q` (`_mm_srlv_epi32/64`). -/
def srlv (w : Nat) : M128 → M128 → M128 := map2 w (fun x c => x >>> c.toNat)
/-- `VPSRAVD` (`_mm_srav_epi32`): too large counts fill with the sign. -/
def srav (w : Nat) : M128 → M128 → M128 := map2 w (fun x c => x.sshiftRight c.toNat)

/-- `CVTTPS2DQ` (`near = false`, towards zero) and `CVTPS2DQ` (`near = true`, to nearest even, the default rounding
mode) of one `float` given by its bits; not representable results and NaN give `0x80000000`. -/
def cvtF32I32 (near : Bool) (x : BitVec 32) : BitVec 32 :=
  let e := x.toNat / 2 ^ 23 % 256
  let m := x.toNat % 2 ^ 23
  let sig := if e = 0 then m else 2 ^ 23 + m
  let ex := max e 1
  let mag : Nat :=
    if 150 ≤ ex then sig * 2 ^ (ex - 150)
    else
      let d := 2 ^ (150 - ex)
      let q := sig / d
      let r := sig % d
      if near = true ∧ (d < 2 * r ∨ (2 * r = d ∧ q % 2 = 1)) then q + 1 else q
  let z : Int := if x.msb = true then -(mag : Int) else (mag : Int)
  if e ≠ 255 ∧ -(2 ^ 31) ≤ z ∧ z < 2 ^ 31 then BitVec.ofInt 32 z else 0x80000000#32
/-- The conversion of every lane (`_mm_cvttps_epi32`, `_mm_cvtps_epi32`). -/
def cvtps (near : Bool) : M128 → M128 := map1 32 (cvtF32I32 near)

end Hwy.X86
