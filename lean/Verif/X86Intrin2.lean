import Verif.X86Ops

/-!
# Rearranging instructions of SSE2, SSSE3 and SSE4.1

Trusted semantics (Intel SDM vol. 2), lane by lane, like `X86Intrin.lean`.
-/

namespace Hwy.X86

/-- `PUNPCKLBW/WD/DQ/QDQ` (`_mm_unpacklo_epi8/16/32/64`): interleaves the lanes of the lower halves. -/
def unpacklo (w : Nat) (a b : M128) : M128 :=
  mk w (fun i => if i % 2 = 0 then lane w (i / 2) a else lane w (i / 2) b)
/-- `PUNPCKHBW/WD/DQ/QDQ` (`_mm_unpackhi_epi8/16/32/64`): interleaves the lanes of the upper halves. -/
def unpackhi (w : Nat) (a b : M128) : M128 :=
  mk w (fun i => if i % 2 = 0 then lane w (64 / w + i / 2) a else lane w (64 / w + i / 2) b)
/-- `PSHUFLW` (`_mm_shufflelo_epi16`): permutes the lower four words. -/
def shufflelo16 (a : M128) (imm : Nat) : M128 :=
  mk 16 (fun i => if i < 4 then lane 16 (imm >>> (2 * i) % 4) a else lane 16 i a)
/-- `PSHUFHW` (`_mm_shufflehi_epi16`): permutes the upper four words. -/
def shufflehi16 (a : M128) (imm : Nat) : M128 :=
  mk 16 (fun i => if i < 4 then lane 16 i a else lane 16 (4 + imm >>> (2 * (i - 4)) % 4) a)
/-- `SHUFPS` (`_mm_shuffle_ps`): lanes 0 and 1 from `a`, lanes 2 and 3 from `b`. -/
def shufflePs (a b : M128) (imm : Nat) : M128 :=
  mk 32 (fun i => if i < 2 then lane 32 (imm >>> (2 * i) % 4) a else lane 32 (imm >>> (2 * i) % 4) b)
/-- `SHUFPD` (`_mm_shuffle_pd`). -/
def shufflePd (a b : M128) (imm : Nat) : M128 :=
  mk 64 (fun i => if i < 1 then lane 64 (imm >>> i % 2) a else lane 64 (imm >>> i % 2) b)
/-- The `_MM_SHUFFLE2` macro. -/
def MM_SHUFFLE2 (y x : Nat) : Nat := y * 2 + x
/-- `PBLENDW`, `BLENDPS`, `BLENDPD` (`_mm_blend_epi16/ps/pd`, SSE4.1) with `w = 16, 32, 64`: a set bit of
the immediate selects `b`. -/
def blend (w : Nat) (a b : M128) (imm : Nat) : M128 :=
  mk w (fun i => if imm >>> i % 2 = 1 then lane w i b else lane w i a)
/-- `PSLLDQ` (`_mm_slli_si128`): shifts by bytes towards the upper lanes. -/
def slliBytes (a : M128) (k : Nat) : M128 := mk 8 (fun i => if k ≤ i then lane 8 (i - k) a else 0#8)
/-- `PSRLDQ` (`_mm_srli_si128`): shifts by bytes towards the lower lanes. -/
def srliBytes (a : M128) (k : Nat) : M128 := mk 8 (fun i => if i + k < 16 then lane 8 (i + k) a else 0#8)
/-- `PALIGNR` (`_mm_alignr_epi8`, SSSE3): bytes `k .. k+15` of `hi:lo` (for `k ≤ 16`). -/
def alignr (hi lo : M128) (k : Nat) : M128 :=
  mk 8 (fun i => if i + k < 16 then lane 8 (i + k) lo else if i + k < 32 then lane 8 (i + k - 16) hi else 0#8)
/-- `PACKUSWB` (`w = 16`), `PACKUSDW` (`w = 32`, SSE4.1): signed lanes of `w` bits to unsigned lanes of
`w/2` bits with saturation; `a` in the lower half. -/
def packus (w : Nat) (a b : M128) : M128 :=
  let c := fun (x : BitVec w) => BitVec.ofInt (w / 2) (max 0 (min x.toInt (2 ^ (w / 2) - 1)))
  mk (w / 2) (fun i => if i < 128 / w then c (lane w i a) else c (lane w (i - 128 / w) b))
/-- `PACKSSWB` (`w = 16`), `PACKSSDW` (`w = 32`): signed lanes to signed lanes of half the width with
saturation. -/
def packs (w : Nat) (a b : M128) : M128 :=
  let c := fun (x : BitVec w) => BitVec.ofInt (w / 2) (clampI (w / 2) x.toInt)
  mk (w / 2) (fun i => if i < 128 / w then c (lane w i a) else c (lane w (i - 128 / w) b))
/-- `MOVQ` (`_mm_move_epi64`): keeps the lower half, clears the upper. -/
def moveEpi64 (a : M128) : M128 := mk 64 (fun i => if i = 0 then lane 64 0 a else 0#64)
/-- A register constant given by its bytes (aligned or zero-extending partial loads of constant arrays,
`_mm_setr_epi8`); missing bytes are zero. -/
def ofBytes (l : List Nat) : M128 := mk 8 (fun i => BitVec.ofNat 8 (l.getD i 0))
/-- A register constant given by its 16-bit lanes (`_mm_setr_epi16`). -/
def of16 (l : List Nat) : M128 := mk 16 (fun i => BitVec.ofNat 16 (l.getD i 0))

end Hwy.X86
