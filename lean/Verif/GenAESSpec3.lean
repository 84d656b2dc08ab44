import Verif.GenAESSpec2

/-!
# C51: decryption with the inverse operations recovers the plaintext, for every number of rounds
-/

namespace Hwy
namespace Emu
open CInt

/-! ### The inverse of every step -/

theorem xtime_xor (a b : BitVec 8) : xtime (a ^^^ b) = xtime a ^^^ xtime b := by
  unfold xtime
  rw [BitVec.msb_xor, BitVec.shiftLeft_xor_distrib]
  cases a.msb <;> cases b.msb <;> simp <;> try ac_rfl
  all_goals
    rw [show a <<< 1 ^^^ 27#8 ^^^ (b <<< 1 ^^^ 27#8) = a <<< 1 ^^^ b <<< 1 ^^^ (27#8 ^^^ 27#8) by ac_rfl]
    simp

/-- `InvMixColumns` is linear. -/
theorem specInvMix_key (k s : State) : specInvMix (specKey k s) = specKey (specInvMix k) (specInvMix s) := by
  funext i
  unfold specInvMix specMat specKey
  have g := gmul_consts
  have hr : i % 4 = 0 ∨ i % 4 = 1 ∨ i % 4 = 2 ∨ i % 4 = 3 := by omega
  rcases hr with h | h | h | h <;> simp [h, (g _).2.2.2, xtime_xor] <;> ac_rfl

theorem mix_col (a b c d : BitVec 8) :
    gmul (gmul a 2#8 ^^^ gmul b 3#8 ^^^ gmul c 1#8 ^^^ gmul d 1#8) 14#8 ^^^
    gmul (gmul a 1#8 ^^^ gmul b 2#8 ^^^ gmul c 3#8 ^^^ gmul d 1#8) 11#8 ^^^
    gmul (gmul a 1#8 ^^^ gmul b 1#8 ^^^ gmul c 2#8 ^^^ gmul d 3#8) 13#8 ^^^
    gmul (gmul a 3#8 ^^^ gmul b 1#8 ^^^ gmul c 1#8 ^^^ gmul d 2#8) 9#8 = a := by
  have gx : ∀ x : BitVec 8,
      gmul (gmul x 2#8) 14#8 ^^^ gmul (gmul x 1#8) 11#8 ^^^ gmul (gmul x 1#8) 13#8 ^^^ gmul (gmul x 3#8) 9#8 = x ∧
      gmul (gmul x 3#8) 14#8 ^^^ gmul (gmul x 2#8) 11#8 ^^^ gmul (gmul x 1#8) 13#8 ^^^ gmul (gmul x 1#8) 9#8 = 0#8 ∧
      gmul (gmul x 1#8) 14#8 ^^^ gmul (gmul x 3#8) 11#8 ^^^ gmul (gmul x 2#8) 13#8 ^^^ gmul (gmul x 1#8) 9#8 = 0#8 ∧
      gmul (gmul x 1#8) 14#8 ^^^ gmul (gmul x 1#8) 11#8 ^^^ gmul (gmul x 3#8) 13#8 ^^^ gmul (gmul x 2#8) 9#8 = 0#8 := by
    refine forall8 ?_
    decide +kernel
  have lin : ∀ x y : BitVec 8, gmul (x ^^^ y) 14#8 = gmul x 14#8 ^^^ gmul y 14#8 ∧
      gmul (x ^^^ y) 11#8 = gmul x 11#8 ^^^ gmul y 11#8 ∧ gmul (x ^^^ y) 13#8 = gmul x 13#8 ^^^ gmul y 13#8 ∧
      gmul (x ^^^ y) 9#8 = gmul x 9#8 ^^^ gmul y 9#8 := by
    intro x y
    have g := gmul_consts
    simp only [(g _).2.2.2, xtime_xor]
    refine ⟨?_, ?_, ?_, ?_⟩ <;> ac_rfl
  simp only [(lin _ _).1, (lin _ _).2.1, (lin _ _).2.2.1, (lin _ _).2.2.2]
  obtain ⟨h1, -, -, -⟩ := gx a
  obtain ⟨-, h2, -, -⟩ := gx b
  obtain ⟨-, -, h3, -⟩ := gx c
  obtain ⟨-, -, -, h4⟩ := gx d
  generalize gmul (gmul a 2#8) 14#8 = a1 at *
  generalize gmul (gmul a 1#8) 11#8 = a2 at *
  generalize gmul (gmul a 1#8) 13#8 = a3 at *
  generalize gmul (gmul a 3#8) 9#8 = a4 at *
  generalize gmul (gmul b 3#8) 14#8 = b1 at *
  generalize gmul (gmul b 2#8) 11#8 = b2 at *
  generalize gmul (gmul b 1#8) 13#8 = b3 at *
  generalize gmul (gmul b 1#8) 9#8 = b4 at *
  generalize gmul (gmul c 1#8) 14#8 = c1 at *
  generalize gmul (gmul c 3#8) 11#8 = c2 at *
  generalize gmul (gmul c 2#8) 13#8 = c3 at *
  generalize gmul (gmul c 1#8) 9#8 = c4 at *
  generalize gmul (gmul d 1#8) 14#8 = d1 at *
  generalize gmul (gmul d 1#8) 11#8 = d2 at *
  generalize gmul (gmul d 3#8) 13#8 = d3 at *
  generalize gmul (gmul d 2#8) 9#8 = d4 at *
  calc _ = (a1 ^^^ a2 ^^^ a3 ^^^ a4) ^^^ (b1 ^^^ b2 ^^^ b3 ^^^ b4) ^^^ (c1 ^^^ c2 ^^^ c3 ^^^ c4) ^^^
        (d1 ^^^ d2 ^^^ d3 ^^^ d4) := by ac_rfl
    _ = a := by rw [h1, h2, h3, h4]; simp

/-- `InvMixColumns` undoes `MixColumns`. -/
theorem specInvMix_mix (s : State) : ∀ i < 16, specInvMix (specMix s) i = s i := by
  intro i hi
  have h := fun c => mix_col (s (0 + 4 * c)) (s (1 + 4 * c)) (s (2 + 4 * c)) (s (3 + 4 * c))
  have h1 := fun c => mix_col (s (1 + 4 * c)) (s (2 + 4 * c)) (s (3 + 4 * c)) (s (0 + 4 * c))
  have h2 := fun c => mix_col (s (2 + 4 * c)) (s (3 + 4 * c)) (s (0 + 4 * c)) (s (1 + 4 * c))
  have h3 := fun c => mix_col (s (3 + 4 * c)) (s (0 + 4 * c)) (s (1 + 4 * c)) (s (2 + 4 * c))
  have ec : i = i % 4 + 4 * (i / 4) := by omega
  have hr : i % 4 = 0 ∨ i % 4 = 1 ∨ i % 4 = 2 ∨ i % 4 = 3 := by omega
  unfold specInvMix specMix specMat
  generalize i / 4 = c at ec
  have e : ∀ r < 4, (r + 4 * c) / 4 = c ∧ (r + 4 * c) % 4 = r := by intro r hr; omega
  rcases hr with r | r | r | r <;> rw [r] at ec <;> subst ec <;>
    simp only [(e 0 (by decide)).1, (e 1 (by decide)).1, (e 2 (by decide)).1, (e 3 (by decide)).1,
      (e 0 (by decide)).2, (e 1 (by decide)).2, (e 2 (by decide)).2, (e 3 (by decide)).2]
  · refine Eq.trans ?_ (h c); simp
  · refine Eq.trans ?_ (h1 c); simp; ac_rfl
  · refine Eq.trans ?_ (h2 c); simp; ac_rfl
  · refine Eq.trans ?_ (h3 c); simp; ac_rfl

theorem specInvMix_congr {s s' : State} (h : ∀ i < 16, s i = s' i) : ∀ i < 16, specInvMix s i = specInvMix s' i := by
  intro i hi
  unfold specInvMix specMat
  simp only [h (0 + 4 * (i / 4)) (by omega), h (1 + 4 * (i / 4)) (by omega), h (2 + 4 * (i / 4)) (by omega),
    h (3 + 4 * (i / 4)) (by omega)]

theorem specMix_congr {s s' : State} (h : ∀ i < 16, s i = s' i) : ∀ i < 16, specMix s i = specMix s' i := by
  intro i hi
  unfold specMix specMat
  simp only [h (0 + 4 * (i / 4)) (by omega), h (1 + 4 * (i / 4)) (by omega), h (2 + 4 * (i / 4)) (by omega),
    h (3 + 4 * (i / 4)) (by omega)]

/-- `InvShiftRows` and `InvSubBytes` undo `ShiftRows` and `SubBytes`. -/
theorem specInv_shift_sub (s : State) : ∀ i < 16, specInvShift (specInvSub (specShift (specSub s))) i = s i := by
  intro i hi
  unfold specInvShift specInvSub specShift specSub
  rw [invSbox_sbox.1]
  congr 1
  omega

/-! ### Block encryption and decryption by a client -/

/-- Encryption of a block (FIPS 197, 5.1) written with the operations: `AddRoundKey`, one `AESRound` per middle
key, `AESLastRound`. -/
def clientEncrypt (first : List Int) (middle : List (List Int)) (last : List Int) (block : List Int) :
    M (List Int) := do
  let s ← Xor u8 16 block first
  let s ← middle.foldlM AESRound s
  AESLastRound s last

/-- The equivalent inverse cipher (FIPS 197, 5.3.5) written with the operations: the round keys in reverse
order, the middle ones through `AESInvMixColumns`. -/
def clientDecrypt (first : List Int) (middle : List (List Int)) (last : List Int) (block : List Int) :
    M (List Int) := do
  let s ← Xor u8 16 block last
  let s ← middle.reverse.foldlM (fun s k => do AESRoundInv s (← AESInvMixColumns k)) s
  AESLastRoundInv s first

theorem IsS.of_reg {v : List Int} {B : State} (hv : Reg u8 v) (h : ∀ i < 16, bytes v i = B i) : IsS v B := by
  refine ⟨hv, fun i hi => ?_⟩
  beta_reduce
  rw [← h i hi]
  exact (IsS.refl hv).2 i hi

theorem IsS.bytes {v : List Int} {B : State} (h : IsS v B) : ∀ i < 16, bytes v i = B i := by
  intro i hi
  unfold Emu.bytes
  rw [h.2 i hi]
  exact bitsOf_toNat8 _

theorem rounds_roundtrip : ∀ (middle : List (List Int)) (last s : List Int), (∀ k ∈ middle, Reg u8 k) →
    Reg u8 last → Reg u8 s →
    ∃ c d, (middle.foldlM AESRound s >>= fun s => AESLastRound s last) = .ok c ∧ Reg u8 c ∧
      (Xor u8 16 c last >>= fun s => middle.reverse.foldlM (fun s k => do AESRoundInv s (← AESInvMixColumns k)) s)
        = .ok d ∧ IsS d (specShift (specSub (bytes s)))
  | [], last, s, _, hl, hs => by
    obtain ⟨c, e, hc, h⟩ := (C51_aes_last_round hs hl).runs
    have hc' : IsS c _ := ⟨hc, h⟩
    obtain ⟨d, e2, hd, h2⟩ := sXor hc' (IsS.refl hl)
    refine ⟨c, d, ?_, hc, ?_, IsS.of_reg hd ?_⟩
    · simpa using e
    · simp only [List.reverse_nil, List.foldlM_nil, e2]; rfl
    · intro i hi
      have hd' : IsS d _ := ⟨hd, h2⟩
      rw [hd'.bytes i hi]
      unfold specKey
      rw [BitVec.xor_assoc, BitVec.xor_self, BitVec.xor_zero]
  | k :: ks, last, s, hk, hl, hs => by
    have hk1 := hk k (List.mem_cons_self ..)
    obtain ⟨s1, e, hs1, h⟩ := (C51_aes_round hs hk1).runs
    obtain ⟨c, d, ec, hc, ed, hd⟩ := rounds_roundtrip ks last s1 (fun x hx => hk x (List.mem_cons_of_mem _ hx)) hl hs1
    have h1 : IsS s1 _ := ⟨hs1, h⟩
    obtain ⟨k', e3, hk', h3⟩ := (C51_aes_inv_mix_columns hk1).runs
    have h3' : IsS k' _ := ⟨hk', h3⟩
    obtain ⟨d', e4, hd', h4⟩ := (C51_aes_round_inv hd.1 hk').runs
    have h4' : IsS d' _ := ⟨hd', h4⟩
    refine ⟨c, d', ?_, hc, ?_, IsS.of_reg hd' ?_⟩
    · rw [List.foldlM_cons, e, ok_bind']
      exact ec
    · rw [List.reverse_cons]
      simp only [List.foldlM_append, List.foldlM_cons, List.foldlM_nil, bind_pure]
      rw [← bind_assoc, ed, ok_bind', e3, ok_bind', e4]
    · intro i hi
      rw [h4'.bytes i hi]
      have hin : ∀ j < 16, specInvShift (specInvSub (bytes d)) j = bytes s1 j := by
        intro j hj
        rw [← specInv_shift_sub (bytes s1) j hj]
        unfold specInvShift specInvSub
        rw [hd.bytes _ (by omega)]
      have hk2 : bytes k' i = specInvMix (bytes k) i := h3'.bytes i hi
      show specInvMix (specInvShift (specInvSub (bytes d))) i ^^^ bytes k' i = _
      rw [hk2, specInvMix_congr hin i hi, specInvMix_congr h1.bytes i hi, specInvMix_key]
      unfold specKey
      rw [BitVec.xor_assoc, BitVec.xor_self, BitVec.xor_zero]
      exact specInvMix_mix _ i hi

theorem reg_ext16 {a b : List Int} (ha : Reg u8 a) (hb : Reg u8 b) (h : ∀ i < 16, bytes a i = bytes b i) :
    a = b := by
  apply List.ext_getElem
  · rw [ha.len, hb.len]
  · intro i h1 h2
    have hi : i < 16 := by rw [ha.len] at h1; exact h1
    have e1 := (IsS.refl ha).2 i hi
    have e2 := (IsS.refl hb).2 i hi
    beta_reduce at e1 e2
    rw [h i hi, ← e2] at e1
    simpa [lane, List.getD_eq_getElem?_getD, h1, h2] using e1

/-- Decrypting what was encrypted with the same round keys gives back the block, for every block, every
list of round keys and every number of rounds. -/
theorem C51_decrypt_encrypt (first last block : List Int) (middle : List (List Int)) (h1 : Reg u8 first)
    (h2 : Reg u8 last) (h3 : Reg u8 block) (hk : ∀ k ∈ middle, Reg u8 k) :
    (do let c ← clientEncrypt first middle last block
        clientDecrypt first middle last c) = .ok block := by
  obtain ⟨s, e, hs, h⟩ := sXor (IsS.refl h3) (IsS.refl h1)
  have hs' : IsS s _ := ⟨hs, h⟩
  obtain ⟨c, d, ec, hc, ed, hd⟩ := rounds_roundtrip middle last s hk h2 hs
  obtain ⟨r, er, hr, h'⟩ := (C51_aes_last_round_inv hd.1 h1).runs
  have hr' : IsS r _ := ⟨hr, h'⟩
  have : r = block := by
    refine reg_ext16 hr h3 fun i hi => ?_
    rw [hr'.bytes i hi]
    have hin : specInvShift (specInvSub (bytes d)) i = bytes s i := by
      rw [← specInv_shift_sub (bytes s) i hi]
      unfold specInvShift specInvSub
      rw [hd.bytes _ (by omega)]
    show specInvShift (specInvSub (bytes d)) i ^^^ bytes first i = _
    rw [hin, hs'.bytes i hi, BitVec.xor_assoc, BitVec.xor_self, BitVec.xor_zero]
  unfold clientEncrypt clientDecrypt
  rw [e, ok_bind', ec, ok_bind', ← bind_assoc, ed, ok_bind', er, this]

/-! ### FIPS 197, appendix B: the first round of the example -/

example : AESRound
    [0x19, 0x3d, 0xe3, 0xbe, 0xa0, 0xf4, 0xe2, 0x2b, 0x9a, 0xc6, 0x8d, 0x2a, 0xe9, 0xf8, 0x48, 0x08]
    [0xa0, 0xfa, 0xfe, 0x17, 0x88, 0x54, 0x2c, 0xb1, 0x23, 0xa3, 0x39, 0x39, 0x2a, 0x6c, 0x76, 0x05] = .ok
    [0xa4, 0x9c, 0x7f, 0xf2, 0x68, 0x9f, 0x35, 0x2b, 0x6b, 0x5b, 0xea, 0x43, 0x02, 0x6a, 0x50, 0x49] := by
  decide +kernel

example : Reg u8 [0x19, 0x3d, 0xe3, 0xbe, 0xa0, 0xf4, 0xe2, 0x2b, 0x9a, 0xc6, 0x8d, 0x2a, 0xe9, 0xf8, 0x48, 0x08] :=
  ⟨by decide, by decide⟩

end Emu
end Hwy
