import Verif.GenAESSpec

/-!
# C51: the AES operations compute the AES round functions of FIPS 197 (rounds)
-/

namespace Hwy
namespace Emu
open CInt

theorem gmul_consts : ∀ x : BitVec 8, gmul x 1#8 = x ∧ gmul x 2#8 = xtime x ∧ gmul x 3#8 = xtime x ^^^ x ∧
    gmul x 9#8 = xtime (xtime (xtime x)) ^^^ x ∧ gmul x 11#8 = xtime (xtime (xtime x)) ^^^ x ^^^ xtime x ∧
    gmul x 13#8 = xtime (xtime (xtime x)) ^^^ x ^^^ xtime (xtime x) ∧
    gmul x 14#8 = xtime (xtime (xtime x)) ^^^ (xtime (xtime x) ^^^ xtime x) := by
  refine forall8 ?_
  decide +kernel

theorem sMix {a : List Int} {B : State} (ha : IsS a B) : RunsS (MixColumns a) (specMix B) := by
  unfold MixColumns
  dsimp only
  apply RunsS.congr
  · apply RunsS.bind (sMul2 ha)
    intro v1 h1
    apply RunsS.bind (sTlb ha (by decide) (by decide))
    intro v2 h2
    apply RunsS.bind (sXor h1 h2)
    intro v3 h3
    apply RunsS.bind (sXor ha h3)
    intro v4 h4
    apply RunsS.bind (sTlb h4 (by decide) (by decide))
    intro v5 h5
    exact sXor h3 h5
  · intro i hi
    unfold specMix specMat
    have g := gmul_consts
    interval_cases i <;> simp [lane, (g _).1, (g _).2.1, (g _).2.2.1] <;> ac_rfl

theorem sInvMix {a : List Int} {B : State} (ha : IsS a B) : RunsS (InvMixColumns a) (specInvMix B) := by
  unfold InvMixColumns
  dsimp only
  apply RunsS.congr
  · apply RunsS.bind (sMul2 ha)
    intro v2 h2
    apply RunsS.bind (sMul2 h2)
    intro v4 h4
    apply RunsS.bind (sMul2 h4)
    intro v8 h8
    apply RunsS.bind (sXor h8 ha)
    intro v9 h9
    apply RunsS.bind (sXor h9 h2)
    intro v11 h11
    apply RunsS.bind (sXor h9 h4)
    intro v13 h13
    apply RunsS.bind (sXor3 h8 h4 h2)
    intro v14 h14
    apply RunsS.bind (sTlb h9 (by decide) (by decide))
    intro w9 k9
    apply RunsS.bind (sXor h13 k9)
    intro w13 k13
    apply RunsS.bind (sTlb h11 (by decide) (by decide))
    intro w11 k11
    apply RunsS.bind (sXor h14 k11)
    intro w14 k14
    apply RunsS.bind (sTlb k13 (by decide) (by decide))
    intro x13 l13
    exact sXor k14 l13
  · intro i hi
    unfold specInvMix specMat
    have g := gmul_consts
    interval_cases i <;> simp [lane, (g _).2.2.2] <;> ac_rfl

/-! ### Theorems -/

/-- `AESRound(state, key)` is a round of the cipher (FIPS 197, 5.1): `AddRoundKey(MixColumns(ShiftRows(
SubBytes(state))))`. -/
theorem C51_aes_round {a k : List Int} (ha : Reg u8 a) (hk : Reg u8 k) :
    GivesState (AESRound a k) (specKey (bytes k) (specMix (specShift (specSub (bytes a))))) := by
  refine RunsS.gives ?_ (fun i _ => rfl)
  unfold AESRound
  apply RunsS.bind (sSub (IsS.refl ha))
  intro v1 h1
  apply RunsS.bind (sShift h1)
  intro v2 h2
  apply RunsS.bind (sMix h2)
  intro v3 h3
  exact sXor h3 (IsS.refl hk)

/-- `AESLastRound(state, key)` is the last round: without `MixColumns`. -/
theorem C51_aes_last_round {a k : List Int} (ha : Reg u8 a) (hk : Reg u8 k) :
    GivesState (AESLastRound a k) (specKey (bytes k) (specShift (specSub (bytes a)))) := by
  refine RunsS.gives ?_ (fun i _ => rfl)
  unfold AESLastRound
  apply RunsS.bind (sSub (IsS.refl ha))
  intro v1 h1
  apply RunsS.bind (sShift h1)
  intro v2 h2
  exact sXor h2 (IsS.refl hk)

/-- `AESInvMixColumns`. -/
theorem C51_aes_inv_mix_columns {a : List Int} (ha : Reg u8 a) :
    GivesState (AESInvMixColumns a) (specInvMix (bytes a)) :=
  (sInvMix (IsS.refl ha)).gives (fun i _ => rfl)

/-- `AESRoundInv(state, key)` is a round of the equivalent inverse cipher (FIPS 197, 5.3.5):
`AddRoundKey(InvMixColumns(InvShiftRows(InvSubBytes(state))))`. -/
theorem C51_aes_round_inv {a k : List Int} (ha : Reg u8 a) (hk : Reg u8 k) :
    GivesState (AESRoundInv a k) (specKey (bytes k) (specInvMix (specInvShift (specInvSub (bytes a))))) := by
  refine RunsS.gives ?_ (fun i _ => rfl)
  unfold AESRoundInv
  apply RunsS.bind (sInvSub (IsS.refl ha))
  intro v1 h1
  apply RunsS.bind (sInvShift h1)
  intro v2 h2
  apply RunsS.bind (sInvMix h2)
  intro v3 h3
  exact sXor h3 (IsS.refl hk)

/-- `AESLastRoundInv(state, key)`. -/
theorem C51_aes_last_round_inv {a k : List Int} (ha : Reg u8 a) (hk : Reg u8 k) :
    GivesState (AESLastRoundInv a k) (specKey (bytes k) (specInvShift (specInvSub (bytes a)))) := by
  refine RunsS.gives ?_ (fun i _ => rfl)
  unfold AESLastRoundInv
  apply RunsS.bind (sInvSub (IsS.refl ha))
  intro v1 h1
  apply RunsS.bind (sInvShift h1)
  intro v2 h2
  exact sXor h2 (IsS.refl hk)

/-- `AESKeyGenAssist<rcon>`: words `[SubWord(v1), RotWord(SubWord(v1)) ^ rcon, SubWord(v3),
RotWord(SubWord(v3)) ^ rcon]` (FIPS 197, 5.2), where word `w` is bytes `4 w … 4 w + 3`, `RotWord` moves
byte 1 to byte 0 and `rcon` is byte 0 of its word. -/
theorem C51_aes_key_gen_assist {v : List Int} (hv : Reg u8 v) {rcon : Int} (hr : u8.Has rcon) :
    GivesState (AESKeyGenAssist rcon v) (fun i =>
      let w := i / 4
      let j := i % 4
      let src := if w < 2 then 1 else 3
      if w % 2 = 0 then sbox (bytes v (4 * src + j))
      else sbox (bytes v (4 * src + (j + 1) % 4)) ^^^
        (if j = 0 then BitVec.ofInt 8 rcon else 0#8)) := by
  have hm : Reg u8 [0, 0, 0, 0, rcon, 0, 0, 0, 0, 0, 0, 0, rcon, 0, 0, 0] := by
    refine ⟨by simp only [List.length_cons, List.length_nil]; decide, fun x hx => ?_⟩
    simp only [List.mem_cons, List.not_mem_nil, or_false] at hx
    have h0 : u8.Has 0 := by decide
    rcases hx with h | h | h | h | h | h | h | h | h | h | h | h | h | h | h | h <;> subst h <;> assumption
  unfold AESKeyGenAssist
  dsimp only
  apply RunsS.gives
  · apply RunsS.bind (sSub (IsS.refl hv))
    intro v1 h1
    apply RunsS.bind (sTlb h1 (by decide) (by decide))
    intro v2 h2
    exact sXor h2 (IsS.refl hm)
  · intro i hi
    have hx : ∀ x : BitVec 8, x ^^^ (0#8) = x := fun x => BitVec.xor_zero
    unfold specSub bytes
    interval_cases i <;> first | exact hx _ | rfl

end Emu
end Hwy
