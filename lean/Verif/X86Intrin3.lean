import Verif.X86Perm

/-!
# Multiplication instructions of SSE2, SSSE3 and SSE4.1

Trusted semantics (Intel SDM vol. 2), lane by lane, like `X86Intrin.lean`.
-/

namespace Hwy.X86

/-- `PMULLW` (`_mm_mullo_epi16`), `PMULLD` (`_mm_mullo_epi32`, SSE4.1): lower half of the product. -/
def mullo (w : Nat) : M128 → M128 → M128 := map2 w (fun x y => BitVec.ofNat w (x.toNat * y.toNat))
/-- `PMULHUW` (`_mm_mulhi_epu16`): upper half of the unsigned product. -/
def mulhiU16 : M128 → M128 → M128 := map2 16 (fun x y => BitVec.ofNat 16 (x.toNat * y.toNat / 2 ^ 16))
/-- `PMULHW` (`_mm_mulhi_epi16`): upper half of the signed product. -/
def mulhiI16 : M128 → M128 → M128 := map2 16 (fun x y => BitVec.ofInt 16 (x.toInt * y.toInt / 2 ^ 16))
/-- `PMULUDQ` (`_mm_mul_epu32`): full products of the even unsigned 32-bit lanes. -/
def mulEpu32 (a b : M128) : M128 :=
  mk 64 (fun i => BitVec.ofNat 64 ((lane 32 (2 * i) a).toNat * (lane 32 (2 * i) b).toNat))
/-- `PMULDQ` (`_mm_mul_epi32`, SSE4.1): full products of the even signed 32-bit lanes. -/
def mulEpi32 (a b : M128) : M128 :=
  mk 64 (fun i => BitVec.ofInt 64 ((lane 32 (2 * i) a).toInt * (lane 32 (2 * i) b).toInt))
/-- `PMADDWD` (`_mm_madd_epi16`): sums of the products of neighbouring signed words. -/
def madd16 (a b : M128) : M128 :=
  mk 32 (fun i => BitVec.ofInt 32 ((lane 16 (2 * i) a).toInt * (lane 16 (2 * i) b).toInt
    + (lane 16 (2 * i + 1) a).toInt * (lane 16 (2 * i + 1) b).toInt))
/-- `PMADDUBSW` (`_mm_maddubs_epi16`, SSSE3): saturated sums of products of unsigned bytes of `a` and
signed bytes of `b`. -/
def maddubs16 (a b : M128) : M128 :=
  mk 16 (fun i => BitVec.ofInt 16 (clampI 16 ((lane 8 (2 * i) a).toNat * (lane 8 (2 * i) b).toInt
    + (lane 8 (2 * i + 1) a).toNat * (lane 8 (2 * i + 1) b).toInt)))
/-- `PMULHRSW` (`_mm_mulhrs_epi16`, SSSE3): bits 16:1 of the 18 upper bits of the product, plus one. -/
def mulhrs16 : M128 → M128 → M128 :=
  map2 16 (fun x y => BitVec.ofInt 16 ((x.toInt * y.toInt / 2 ^ 14 + 1) / 2))

end Hwy.X86
