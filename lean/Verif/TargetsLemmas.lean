import Verif.Targets
import Verif.BitSetLemmas

namespace Hwy
namespace Tgt

theorem getLsbD_lowMask (a : Arch) (i : Nat) :
    ((1#64 <<< maxDyn a) - 1#64).getLsbD i = decide (i < maxDyn a) := by
  have h : ((1#64 <<< maxDyn a) - 1#64) = BitVec.ofNat 64 (2 ^ maxDyn a - 1) := by cases a <;> decide
  have h2 : maxDyn a < 64 := by cases a <;> decide
  rw [h, BitVec.getLsbD_ofNat, Nat.testBit_two_pow_sub_one]
  by_cases hi : i < maxDyn a
  · simp [hi]; omega
  · simp [hi]

theorem getLsbD_chosenShift (a : Arch) (x : Mask) (i : Nat) :
    (chosenShift a x).getLsbD i =
      (decide (1 ≤ i) && decide (i ≤ maxDyn a) && x.getLsbD (i - 1 + (highest a + 1 - maxDyn a))) := by
  have h2 : maxDyn a < 16 := by cases a <;> decide
  have h3 : highest a + 1 - maxDyn a + maxDyn a < 63 := by cases a <;> decide
  unfold chosenShift
  rw [BitVec.getLsbD_shiftLeft, BitVec.getLsbD_and, getLsbD_lowMask, BitVec.getLsbD_sshiftRight]
  by_cases h1 : 1 ≤ i <;> by_cases hm : i ≤ maxDyn a
  · have e1 : (decide (i - 1 < maxDyn a)) = true := by simp; omega
    have e2 : (decide (64 ≤ i - 1)) = false := by simp; omega
    have e3 : highest a + 1 - maxDyn a + (i - 1) < 64 := by omega
    have e4 : (decide (i < 64)) = true := by simp; omega
    have e5 : (decide (i < 1)) = false := by simp; omega
    rw [e1, e2, e4, e5, if_pos e3]
    simp [h1, hm, Nat.add_comm]
  · have e1 : (decide (i - 1 < maxDyn a)) = false := by simp; omega
    rw [e1]; simp [hm]
  · have e5 : (decide (i < 1)) = true := by simp; omega
    rw [e5]; simp [h1]
  · have e5 : (decide (i < 1)) = true := by simp; omega
    rw [e5]; simp [h1]

theorem getLsbD_maskScalar (a : Arch) (i : Nat) : (maskScalar a).getLsbD i = decide (i = maxDyn a + 1) := by
  have h2 : maxDyn a < 16 := by cases a <;> decide
  unfold maskScalar
  rw [BitVec.getLsbD_shiftLeft]
  by_cases h : i = maxDyn a + 1
  · subst h; simp; omega
  · by_cases h' : i < maxDyn a + 1
    · simp [h']; omega
    · have : i - (maxDyn a + 1) ≠ 0 := by omega
      simp [h, BitVec.getLsbD_one]; omega

theorem getLsbD_one64 (i : Nat) : (1#64).getLsbD i = decide (i = 0) := by
  rw [BitVec.getLsbD_one]; simp

/-- Bits looked at by `GetIndex` after `Update(S)`. -/
theorem getLsbD_update (a : Arch) (u : Unit') (S : Mask) (i : Nat) :
    (updateMask a S &&& maskTargets a u).getLsbD i =
      ((decide (1 ≤ i) && decide (i ≤ maxDyn a) &&
        (S &&& u.compiled).getLsbD (i - 1 + (highest a + 1 - maxDyn a))) || decide (i = maxDyn a + 1)) := by
  unfold updateMask maskTargets
  simp only [BitVec.getLsbD_and, BitVec.getLsbD_or, getLsbD_chosenShift, getLsbD_maskScalar, getLsbD_one64]
  by_cases h1 : 1 ≤ i <;> by_cases hm : i ≤ maxDyn a <;> by_cases hs : i = maxDyn a + 1 <;>
    simp [h1, hm, hs] <;> first | omega | skip
  all_goals (by_cases h0 : i = 0 <;> simp [h0] <;> omega)

theorem getIndex_one (a : Arch) (u : Unit') : getIndex a u 1 = .ok 0 := by
  unfold getIndex num0BitsBelowLS1Bit_Nonzero64
  have hb : ((1 : Mask) &&& maskTargets a u).getLsbD 0 = true := by
    simp [maskTargets]
  rw [if_neg (by intro h; rw [h] at hb; simp at hb)]
  exact congrArg Except.ok (ctz_unique _ 0 hb (by intro j hj; omega))

theorem chooseList_length (a : Arch) : (chooseList a).length = maxDyn a := by cases a <;> rfl

theorem table_zero (a : Arch) (u : Unit') : (table a u)[0]? = some .chooser := rfl

theorem table_mid (a : Arch) (u : Unit') (k : Nat) (hk : k < maxDyn a) (o : Option Nat)
    (h : (chooseList a)[k]? = some o) : (table a u)[k + 1]? = some (choose u o) := by
  unfold table
  rw [List.getElem?_append_left (by simp [chooseList_length]; omega),
    List.getElem?_append_right (by simp)]
  simp [h]

theorem table_last (a : Arch) (u : Unit') : (table a u)[maxDyn a + 1]? = some (.fn (fallback u)) := by
  unfold table
  rw [List.getElem?_append_right (by simp [chooseList_length])]
  simp [chooseList_length]

theorem readAt_some {α : Type} (l : List α) (i : Nat) (x : α) (h : l[i]? = some x) : readAt l i = .ok x := by
  unfold readAt; rw [h]

end Tgt
end Hwy
