import Verif.X86Lane
import Verif.X86SatWideSpec
import Verif.X86V256OpsSpec
import Verif.X86V256Spec4

/-!
# C83: ExtractLane and InsertLane read and replace exactly one lane
-/

namespace Hwy.X86

theorem byte_of_pair (k : Nat) (v : M128) :
    ((lane 16 (k / 2) v >>> (if k % 2 = 1 then 8 else 0)) &&& 0xFF#16).setWidth 8 = lane 8 k v := by
  have e : k = 2 * (k / 2) + k % 2 := by omega
  have h2 : k % 2 < 2 := Nat.mod_lt _ (by omega)
  have key : lane 8 k v = (lane 16 (k / 2) v).extractLsb' (8 * (k % 2)) 8 := by
    conv_lhs => rw [e]
    exact lane_sub 8 2 (k / 2) (k % 2) h2 v
  rw [key]
  generalize lane 16 (k / 2) v = x
  apply BitVec.eq_of_getLsbD_eq
  intro j hj
  have hm : (0xFF#16).getLsbD j = true := by
    have : j = 0 ∨ j = 1 ∨ j = 2 ∨ j = 3 ∨ j = 4 ∨ j = 5 ∨ j = 6 ∨ j = 7 := by omega
    rcases this with rfl | rfl | rfl | rfl | rfl | rfl | rfl | rfl <;> rfl
  rw [BitVec.getLsbD_setWidth, BitVec.getLsbD_and, BitVec.getLsbD_ushiftRight, BitVec.getLsbD_extractLsb', hm]
  rcases (show k % 2 = 0 ∨ k % 2 = 1 by omega) with c | c <;> simp [c, hj]

theorem high_of_shuffle (v : M128) : lane 64 0 (shuffle32 v 238) = lane 64 1 v := by
  have : ∀ i, i < Lanes 64 8 → lane 64 i (shuffle32 v 238) = lane 64 (1 + i) v := fun i hi' => by leaf1 hi'
  exact this 0 (by decide)

theorem extractLaneConst (t : Tgt) (flt : Bool) {w k : Nat} (h : InReg w k) (v : M128) : ExtractLaneConst t flt w k v = lane w k v := by
  unfold ExtractLaneConst GetLane pextr
  obtain ⟨hw, hk⟩ := h
  rcases hw with rfl | rfl | rfl | rfl
  · simp only [if_true]
    split
    · exact byte_of_pair k v
    · rfl
  · simp only [Nat.reduceEqDiff, if_false, if_true]
  · simp only [Nat.reduceEqDiff, if_false, if_true]
    have : k = 0 ∨ k = 1 ∨ k = 2 ∨ k = 3 := by omega
    rcases this with rfl | rfl | rfl | rfl <;> cases flt <;> (split <;> first | rfl | exact lane_mk (by omega) (by omega) _)
  · simp only [Nat.reduceEqDiff, if_false]
    have : k = 0 ∨ k = 1 := by omega
    rcases this with rfl | rfl
    · cases flt <;> simp
    · cases flt
      · simp only [Bool.false_eq_true, if_false, one_ne_zero]
        split
        · have e0 : lane 64 0 (shuffle32 v 238) = lane 64 1 v := high_of_shuffle v
          exact e0
        · rfl
      · simp only [if_true, one_ne_zero, if_false]
        rw [C63_upperHalf t (w := 64) (sz := 8) (by simp [Shape]) (by omega) v (i := 0) (by decide)]

/-- `ExtractLane(v, i)`: the bits of lane `i`, for a compile-time and a run-time index. -/
theorem C83_extractLane (t : Tgt) (isConst flt : Bool) {w sz : Nat} (hs : Shape w sz) (v : M128) {i : Nat} (h : i < Lanes w sz) :
    ExtractLane t isConst flt w sz v i = lane w i v := by
  unfold ExtractLane
  split
  · rename_i e
    have : Lanes w sz = 1 := by
      have hs' := hs
      unfold Shape at hs'
      unfold Lanes; rw [e]
      exact Nat.div_self (by omega)
    have : i = 0 := by omega
    subst this; rfl
  · split
    · exact extractLaneConst t flt (inReg_of hs h) v
    · rfl

theorem lane_blendInsert (t : Tgt) (flt : Bool) {w i j : Nat} (hi : InReg w i) (hj : InReg w j) (hf : flt = true → w = 32 ∨ w = 64)
    (v : M128) (x : BitVec w) :
    lane w j (InsertLaneUsingBroadcastAndBlend t flt w v i x) = if j = i then x else lane w j v := by
  have hm : lane w j (Eq t w (Iota w 0#w) (set w (BitVec.ofNat w i))) = maskLane w (j = i) := by
    rw [C62_eq t hj, C62_iota hj, lane_set hj, BitVec.zero_add]
    unfold maskLane
    have : (BitVec.ofNat w j = BitVec.ofNat w i) ↔ j = i := by
      constructor
      · intro e
        have := congrArg BitVec.toNat e
        rw [BitVec.toNat_ofNat, BitVec.toNat_ofNat] at this
        obtain ⟨hw, h1⟩ := hi
        obtain ⟨-, h2⟩ := hj
        rcases hw with rfl | rfl | rfl | rfl <;> omega
      · rintro rfl; rfl
    simp only [this]
  unfold InsertLaneUsingBroadcastAndBlend
  cases flt
  · simp only [Bool.false_eq_true, if_false]
    rw [lane_IfThenElse t hj _ _ _ _ hm, lane_set hj]
  · simp only [if_true]
    have hF : lane w j (IfThenElseF t w (Eq t w (Iota w 0#w) (set w (BitVec.ofNat w i))) (set w x) v)
        = if j = i then lane w j (set w x) else lane w j v := by
      unfold IfThenElseF
      split
      · rw [lane_Or, lane_And, lane_AndNot hj, hm, select_maskLane]
      · rw [lane_blendv hj, hm, msb_mask hj.pos]; simp only [decide_eq_true_eq]
    rw [hF, lane_set hj]

theorem lane_insertConst (t : Tgt) (flt : Bool) {w i j : Nat} (hi : InReg w i) (hj : InReg w j) (hf : flt = true → w = 32 ∨ w = 64)
    (v : M128) (x : BitVec w) : lane w j (InsertLaneConst t flt w i v x) = if j = i then x else lane w j v := by
  have hp : lane w j (pinsr w i x v) = if j = i then x else lane w j v := by
    unfold pinsr; rw [lane_mk hj.pos hj.le]
  have hb := lane_blendInsert t flt hi hj hf v x
  unfold InsertLaneConst
  rcases hi.1 with rfl | rfl | rfl | rfl
  · simp only [if_true]; split
    · exact hb
    · exact hp
  · simp only [Nat.reduceEqDiff, if_false, if_true]; exact hp
  · simp only [Nat.reduceEqDiff, if_false, if_true]
    split
    · exact hb
    · split
      · unfold insertPs
        rw [lane_mk hj.pos hj.le]
        have r0 : lane 32 0 (mk 32 (fun j => if j = 0 then x else 0#32)) = x := by rw [lane_mk (by omega) (by omega)]; rfl
        have h4 : i = 0 ∨ i = 1 ∨ i = 2 ∨ i = 3 := by have := hi.2; omega
        have j4 : j = 0 ∨ j = 1 ∨ j = 2 ∨ j = 3 := by have := hj.2; omega
        rcases h4 with rfl | rfl | rfl | rfl <;> rcases j4 with rfl | rfl | rfl | rfl <;> first | exact r0 | rfl
      · exact hp
  · simp only [Nat.reduceEqDiff, if_false]
    split
    · have h2 : i = 0 ∨ i = 1 := by have := hi.2; omega
      have j2 : j = 0 ∨ j = 1 := by have := hj.2; omega
      have r0 : InReg 64 0 := ⟨by omega, by omega⟩
      rcases h2 with rfl | rfl
      · simp only [if_true]
        unfold shufflePd; rw [lane_mk hj.pos hj.le]
        rcases j2 with rfl | rfl
        · exact lane_set r0 x
        · rfl
      · simp only [one_ne_zero, if_false]
        unfold shufflePd; rw [lane_mk hj.pos hj.le]
        rcases j2 with rfl | rfl
        · rfl
        · exact lane_set r0 x
    · exact hp

/-- `InsertLane(v, i, x)`: lane `i` is `x`, all other lanes are unchanged, for a compile-time and a run-time index. -/
theorem C83_insertLane (t : Tgt) (isConst flt : Bool) {w sz : Nat} (hs : Shape w sz) (hf : flt = true → w = 32 ∨ w = 64)
    (v : M128) (x : BitVec w) {i j : Nat} (hi : i < Lanes w sz) (hj : j < Lanes w sz) :
    lane w j (InsertLane t isConst flt w sz v i x) = if j = i then x else lane w j v := by
  have ri := inReg_of hs hi
  have rj := inReg_of hs hj
  unfold InsertLane
  split
  · rename_i e
    have : Lanes w sz = 1 := by
      have hs' := hs
      unfold Shape at hs'
      unfold Lanes; rw [e]
      exact Nat.div_self (by omega)
    rw [lane_set rj, if_pos (by omega)]
  · split
    · exact lane_insertConst t flt ri rj hf v x
    · exact lane_blendInsert t flt ri rj hf v x

namespace V256

/-- `ExtractLane(v, i)` of a 256-bit vector. -/
theorem C83_extractLane (constBlk isConst flt : Bool) {w : Nat} (hw : Width w) (v : M256) {i : Nat} (h : i < 256 / w) :
    ExtractLaneQ constBlk isConst flt w v i = lane256 w i v := by
  unfold ExtractLaneQ
  have e : 16 / (w / 8) = Lanes w 16 ∧ 16 / (w / 8) = 128 / w := by rcases hw with rfl | rfl | rfl | rfl <;> decide
  dsimp only
  split
  · rename_i c
    rw [X86.C83_extractLane .avx2 isConst flt (shape16 hw) _ (by rw [← e.1]; exact c.2), lane256_lo (by rw [← e.2]; exact c.2)]
    rfl
  · rfl
/-- `InsertLane(v, i, x)` of a 256-bit vector. -/
theorem C83_insertLane (flt : Bool) {w : Nat} (hw : Width w) (v : M256) (x : BitVec w) {i j : Nat} (hi : i < 256 / w) (hj : j < 256 / w) :
    lane256 w j (InsertLaneQ flt w v i x) = if j = i then x else lane256 w j v := by
  have key := C76_ifThenElse hw (C76_compare true hw (Iota w 0#w) (setQ w (BitVec.ofNat w i))).1 (setQ w x) v hj
  have hp : (BitVec.ofNat w j = BitVec.ofNat w i) ↔ j = i := by
    constructor
    · intro e
      have := congrArg BitVec.toNat e
      rw [BitVec.toNat_ofNat, BitVec.toNat_ofNat] at this
      rcases hw with rfl | rfl | rfl | rfl <;> omega
    · rintro rfl; rfl
  simp only [C73_iota hw _ hj, lane_setQ hw _ hj, BitVec.zero_add, hp, decide_eq_true_eq] at key
  unfold InsertLaneQ
  cases flt
  · exact key.1
  · exact key.2.1

end V256
end Hwy.X86
