import Verif.X86Reg

/-!
# The SSE/SSSE3/SSE4/AVX2 integer instructions used by `hwy/ops/x86_128-inl.h`

These are the *trusted* semantics of the intrinsics (Intel SDM vol. 2), written lane by lane and
parametric in the lane width `w`: the model of `_mm_add_epi16` is `addI 16`, and so on.  Nothing here
is Highway code; everything in `X86Ops*.lean` is.
-/

namespace Hwy.X86

/-- Lane-wise application of a one-operand function. -/
def map1 (w : Nat) (f : BitVec w → BitVec w) (a : M128) : M128 := mk w (fun i => f (lane w i a))
/-- Lane-wise application of a two-operand function. -/
def map2 (w : Nat) (f : BitVec w → BitVec w → BitVec w) (a b : M128) : M128 :=
  mk w (fun i => f (lane w i a) (lane w i b))

/-- `PADDB/W/D/Q` (`_mm_add_epi8/16/32/64`). -/
def addI (w : Nat) : M128 → M128 → M128 := map2 w (fun x y => x + y)
/-- `PSUBB/W/D/Q` (`_mm_sub_epi8/16/32/64`). -/
def subI (w : Nat) : M128 → M128 → M128 := map2 w (fun x y => x - y)
/-- `PAND`, `POR`, `PXOR`, `PANDN` (`_mm_and_si128`, `_mm_or_si128`, `_mm_xor_si128`, `_mm_andnot_si128`). -/
def pand (a b : M128) : M128 := a &&& b
@[inherit_doc pand] def por (a b : M128) : M128 := a ||| b
@[inherit_doc pand] def pxor (a b : M128) : M128 := a ^^^ b
@[inherit_doc pand] def pandn (a b : M128) : M128 := ~~~a &&& b
/-- `_mm_set1_epi8/16/32/64x`. -/
def set1 (w : Nat) (x : BitVec w) : M128 := mk w (fun _ => x)
/-- `PCMPEQB/W/D` (SSE2), `PCMPEQQ` (SSE4.1): all-ones where equal. -/
def cmpeq (w : Nat) : M128 → M128 → M128 :=
  map2 w (fun x y => if x = y then BitVec.allOnes w else 0#w)
/-- `PCMPGTB/W/D` (SSE2), `PCMPGTQ` (SSE4.2): signed greater-than. -/
def cmpgt (w : Nat) : M128 → M128 → M128 :=
  map2 w (fun x y => if y.toInt < x.toInt then BitVec.allOnes w else 0#w)
/-- `PSLLW/D/Q` with an immediate: counts `≥ w` give zero. -/
def slli (w n : Nat) : M128 → M128 := map1 w (fun x => x <<< n)
/-- `PSRLW/D/Q` with an immediate. -/
def srli (w n : Nat) : M128 → M128 := map1 w (fun x => x >>> n)
/-- `PSRAW/D` with an immediate: counts `≥ w` fill with the sign. -/
def srai (w n : Nat) : M128 → M128 := map1 w (fun x => x.sshiftRight n)
/-- `PSLLW/D/Q` with a register count: the whole low 64 bits of `c` are the count. -/
def sll (w : Nat) (a c : M128) : M128 := slli w (lane 64 0 c).toNat a
/-- `PSRLW/D/Q` with a register count. -/
def srl (w : Nat) (a c : M128) : M128 := srli w (lane 64 0 c).toNat a
/-- `PSRAW/D` with a register count. -/
def sra (w : Nat) (a c : M128) : M128 := srai w (lane 64 0 c).toNat a
/-- `_mm_cvtsi32_si128`: a 32-bit integer in the lowest lane, zeros above. -/
def cvtsi32 (n : Int) : M128 := (BitVec.ofInt 32 n).setWidth 128
/-- `PADDUSB/W`: unsigned saturating addition. -/
def addsU (w : Nat) : M128 → M128 → M128 :=
  map2 w (fun x y => BitVec.ofNat w (min (x.toNat + y.toNat) (2 ^ w - 1)))
/-- `PSUBUSB/W`: unsigned saturating subtraction. -/
def subsU (w : Nat) : M128 → M128 → M128 := map2 w (fun x y => BitVec.ofNat w (x.toNat - y.toNat))
/-- Clamping to the range of a signed `w`-bit integer. -/
def clampI (w : Nat) (z : Int) : Int := max (-(2 ^ (w - 1))) (min z (2 ^ (w - 1) - 1))
/-- `PADDSB/W`: signed saturating addition. -/
def addsI (w : Nat) : M128 → M128 → M128 :=
  map2 w (fun x y => BitVec.ofInt w (clampI w (x.toInt + y.toInt)))
/-- `PSUBSB/W`: signed saturating subtraction. -/
def subsI (w : Nat) : M128 → M128 → M128 :=
  map2 w (fun x y => BitVec.ofInt w (clampI w (x.toInt - y.toInt)))
/-- `PAVGB/W`: rounding average of unsigned lanes. -/
def avgU (w : Nat) : M128 → M128 → M128 :=
  map2 w (fun x y => BitVec.ofNat w ((x.toNat + y.toNat + 1) / 2))
/-- `PMINUB` (SSE2), `PMINUW/D` (SSE4.1). -/
def minU (w : Nat) : M128 → M128 → M128 := map2 w (fun x y => if x.toNat < y.toNat then x else y)
/-- `PMAXUB` (SSE2), `PMAXUW/D` (SSE4.1). -/
def maxU (w : Nat) : M128 → M128 → M128 := map2 w (fun x y => if x.toNat < y.toNat then y else x)
/-- `PMINSW` (SSE2), `PMINSB/D` (SSE4.1). -/
def minI (w : Nat) : M128 → M128 → M128 := map2 w (fun x y => if x.toInt < y.toInt then x else y)
/-- `PMAXSW` (SSE2), `PMAXSB/D` (SSE4.1). -/
def maxI (w : Nat) : M128 → M128 → M128 := map2 w (fun x y => if x.toInt < y.toInt then y else x)
/-- `PABSB/W/D` (SSSE3): the minimum value maps to itself. -/
def absI (w : Nat) : M128 → M128 := map1 w (fun x => if x.toInt < 0 then -x else x)
/-- `PSIGNB/W/D` (SSSE3): negates, zeroes or keeps `a` by the sign of `b`. -/
def signI (w : Nat) : M128 → M128 → M128 :=
  map2 w (fun x y => if y.toInt < 0 then -x else if y.toInt = 0 then 0#w else x)
/-- `PSHUFD` (`_mm_shuffle_epi32`). -/
def shuffle32 (a : M128) (imm : Nat) : M128 := mk 32 (fun i => lane 32 (imm >>> (2 * i) % 4) a)
/-- The `_MM_SHUFFLE` macro. -/
def MM_SHUFFLE (z y x w : Nat) : Nat := z * 64 + y * 16 + x * 4 + w
/-- `PBLENDVB`, `BLENDVPS`, `BLENDVPD` (SSE4.1), `w = 8, 32, 64`: the most significant bit of each
lane of `m` selects `b`. -/
def blendv (w : Nat) (a b m : M128) : M128 :=
  mk w (fun i => if (lane w i m).msb then lane w i b else lane w i a)
/-- `PSHUFB` (SSSE3): index bit 7 zeroes, otherwise the low four bits select a byte. -/
def shuffle8 (a idx : M128) : M128 :=
  mk 8 (fun i => if (lane 8 i idx).msb then 0#8 else lane 8 ((lane 8 i idx).toNat % 16) a)
/-- `|x - y|` of two unsigned bytes, as a natural number. -/
def absDiffU (x y : BitVec 8) : Nat := (x.toNat - y.toNat) + (y.toNat - x.toNat)
/-- `PSADBW`: sum of absolute differences of the eight unsigned bytes of each half. -/
def sad8 (a b : M128) : M128 :=
  mk 64 (fun i => BitVec.ofNat 64
    (((List.range 8).map (fun j => absDiffU (lane 8 (8 * i + j) a) (lane 8 (8 * i + j) b))).sum))

end Hwy.X86
