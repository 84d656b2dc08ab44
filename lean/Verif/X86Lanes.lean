import Verif.X86Ops

/-! Lane rules of the x86 instruction model. -/

namespace Hwy.X86

/-- The lane index `i` addresses an existing lane of one of the four integer widths. -/
def InReg (w i : Nat) : Prop := (w = 8 ∨ w = 16 ∨ w = 32 ∨ w = 64) ∧ i < 128 / w

theorem InReg.pos {w i : Nat} (h : InReg w i) : 0 < w := by
  rcases h.1 with rfl | rfl | rfl | rfl <;> omega
theorem InReg.le {w i : Nat} (h : InReg w i) : w * i + w ≤ 128 := by
  obtain ⟨rfl | rfl | rfl | rfl, h⟩ := h <;> omega

section
variable {w i : Nat} (h : InReg w i)
include h

theorem lane_map1 (f : BitVec w → BitVec w) (a : M128) :
    lane w i (map1 w f a) = f (lane w i a) := lane_mk h.pos h.le _
theorem lane_map2 (f : BitVec w → BitVec w → BitVec w) (a b : M128) :
    lane w i (map2 w f a b) = f (lane w i a) (lane w i b) := lane_mk h.pos h.le _
theorem lane_set1 (x : BitVec w) : lane w i (set1 w x) = x := lane_mk h.pos h.le _
theorem lane_set (x : BitVec w) : lane w i (set w x) = x := lane_mk h.pos h.le _
theorem lane_addI (a b : M128) : lane w i (addI w a b) = lane w i a + lane w i b := lane_map2 h _ a b
theorem lane_subI (a b : M128) : lane w i (subI w a b) = lane w i a - lane w i b := lane_map2 h _ a b
theorem lane_Add (a b : M128) : lane w i (Add w a b) = lane w i a + lane w i b := lane_map2 h _ a b
theorem lane_Sub (a b : M128) : lane w i (Sub w a b) = lane w i a - lane w i b := lane_map2 h _ a b
theorem lane_cmpeq (a b : M128) :
    lane w i (cmpeq w a b) = if lane w i a = lane w i b then BitVec.allOnes w else 0#w :=
  lane_map2 h _ a b
theorem lane_cmpgt (a b : M128) :
    lane w i (cmpgt w a b) = if (lane w i b).toInt < (lane w i a).toInt then BitVec.allOnes w else 0#w :=
  lane_map2 h _ a b
theorem lane_slli (n : Nat) (a : M128) : lane w i (slli w n a) = lane w i a <<< n := lane_map1 h _ a
theorem lane_srli (n : Nat) (a : M128) : lane w i (srli w n a) = lane w i a >>> n := lane_map1 h _ a
theorem lane_srai (n : Nat) (a : M128) : lane w i (srai w n a) = (lane w i a).sshiftRight n :=
  lane_map1 h _ a
theorem lane_blendv (a b m : M128) :
    lane w i (blendv w a b m) = if (lane w i m).msb then lane w i b else lane w i a :=
  lane_mk h.pos h.le _
end

theorem lane_zero' (w i : Nat) : lane w i zero = 0#w := lane_zero w i
theorem lane_And (w i : Nat) (a b : M128) : lane w i (And a b) = lane w i a &&& lane w i b :=
  lane_and w i a b
theorem lane_Or (w i : Nat) (a b : M128) : lane w i (Or a b) = lane w i a ||| lane w i b :=
  lane_or w i a b
theorem lane_Xor (w i : Nat) (a b : M128) : lane w i (Xor a b) = lane w i a ^^^ lane w i b :=
  lane_xor w i a b
theorem lane_AndNot {w i : Nat} (h : InReg w i) (a b : M128) :
    lane w i (AndNot a b) = ~~~(lane w i a) &&& lane w i b := by
  unfold AndNot pandn; rw [lane_and, lane_not h.le]

theorem set1_neg1 : set1 32 (BitVec.ofInt 32 (-1)) = BitVec.allOnes 128 := by decide +kernel

theorem Not_eq (v : M128) : Not v = ~~~v := by
  unfold Not Xor pxor; rw [set1_neg1]
  apply BitVec.eq_of_getLsbD_eq; intro k hk
  rw [BitVec.getLsbD_xor, BitVec.getLsbD_allOnes, BitVec.getLsbD_not]; simp only [hk, decide_true, Bool.xor_true, Bool.true_and]

theorem lane_Not {w i : Nat} (h : InReg w i) (a : M128) : lane w i (Not a) = ~~~(lane w i a) := by
  rw [Not_eq, lane_not h.le]

theorem lane_shuffle32 {i : Nat} (hi : i < 4) (a : M128) (imm : Nat) :
    lane 32 i (shuffle32 a imm) = lane 32 (imm >>> (2 * i) % 4) a :=
  lane_mk (by omega) (by omega) _

theorem allOnes_append_iff (x y : BitVec 64) :
    x = y ↔ x.extractLsb' 0 32 = y.extractLsb' 0 32 ∧ x.extractLsb' 32 32 = y.extractLsb' 32 32 := by
  constructor
  · rintro rfl; exact ⟨rfl, rfl⟩
  · rintro ⟨h1, h2⟩
    apply BitVec.eq_of_getLsbD_eq; intro k hk
    by_cases hk' : k < 32
    · have := congrArg (fun z => z.getLsbD k) h1
      simpa [BitVec.getLsbD_extractLsb', hk'] using this
    · have := congrArg (fun z => z.getLsbD (k - 32)) h2
      simp only [BitVec.getLsbD_extractLsb', show k - 32 < 32 by omega, decide_true, Bool.true_and,
        show 32 + (k - 32) = k by omega] at this
      exact this

/-- The two 32-bit halves of a 64-bit lane. -/
theorem lo32 (i : Nat) (r : M128) : lane 32 (2 * i) r = (lane 64 i r).extractLsb' 0 32 :=
  lane_sub 32 2 i 0 (by omega) r
theorem hi32 (i : Nat) (r : M128) : lane 32 (2 * i + 1) r = (lane 64 i r).extractLsb' 32 32 :=
  lane_sub 32 2 i 1 (by omega) r

theorem lane64_ext {i : Nat} {r : M128} {x : BitVec 64}
    (h0 : lane 32 (2 * i) r = x.extractLsb' 0 32) (h1 : lane 32 (2 * i + 1) r = x.extractLsb' 32 32) :
    lane 64 i r = x := by
  rw [lo32] at h0; rw [hi32] at h1
  exact (allOnes_append_iff _ _).2 ⟨h0, h1⟩

/-! Bits of the whole-register shifts, for reasoning across lane widths. -/

theorem getLsbD_slli {w : Nat} (hw : 0 < w) (hd : 128 % w = 0) (k : Nat) (a : M128) (n : Nat) (hn : n < 128) :
    (slli w k a).getLsbD n = (decide (k ≤ n % w) && a.getLsbD (n - k)) := by
  unfold slli map1
  rw [getLsbD_mk w hw]
  have h3 : w * (128 / w) = 128 := by have := Nat.div_add_mod 128 w; omega
  have h4 : n / w < 128 / w := by
    apply (Nat.div_lt_iff_lt_mul hw).2; rw [Nat.mul_comm, h3]; exact hn
  have h5 := Nat.mod_lt n hw
  have h6 := Nat.div_add_mod n w
  rw [BitVec.getLsbD_shiftLeft, getLsbD_lane]
  by_cases hk : k ≤ n % w
  · have h7 : w * (n / w) + (n % w - k) = n - k := by omega
    simp [hn, h4, h5, hk, h7, show ¬ n % w < k by omega, show n % w - k < w by omega]
  · simp [hk, show n % w < k by omega]

theorem getLsbD_srli {w : Nat} (hw : 0 < w) (hd : 128 % w = 0) (k : Nat) (a : M128) (n : Nat) (hn : n < 128) :
    (srli w k a).getLsbD n = (decide (n % w + k < w) && a.getLsbD (n + k)) := by
  unfold srli map1
  rw [getLsbD_mk w hw]
  have h3 : w * (128 / w) = 128 := by have := Nat.div_add_mod 128 w; omega
  have h4 : n / w < 128 / w := by
    apply (Nat.div_lt_iff_lt_mul hw).2; rw [Nat.mul_comm, h3]; exact hn
  have h6 := Nat.div_add_mod n w
  rw [BitVec.getLsbD_ushiftRight, getLsbD_lane]
  have h7 : w * (n / w) + (k + n % w) = n + k := by omega
  rw [h7, Nat.add_comm k]
  simp [hn, h4]

end Hwy.X86
