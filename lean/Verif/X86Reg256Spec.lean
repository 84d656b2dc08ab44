import Verif.X86Shift
import Verif.X86ConvSpec5
import Verif.X86LookupSpec3

/-! Lanes of the 256-bit conversions used by the AVX2 shifts. -/

namespace Hwy.X86

theorem mk64_congr {f g : Nat → BitVec 64} (h0 : f 0 = g 0) (h1 : f 1 = g 1) : mk 64 f = mk 64 g := by
  apply reg_ext (w := 64) (by omega) (by omega)
  intro i hi
  rw [lane_mk (by omega) (by omega), lane_mk (by omega) (by omega)]
  obtain rfl | rfl : i = 0 ∨ i = 1 := by omega
  · exact h0
  · exact h1

theorem permute_CC (q : M256) : castsi256 (permute4x64 q 0xCC) = shufflePd q.lo q.hi 2 := by
  unfold castsi256 permute4x64 shufflePd
  exact mk64_congr rfl rfl
theorem permute_88 (q : M256) : castsi256 (permute4x64 q 0x88) = shufflePd q.lo q.hi 0 := by
  unfold castsi256 permute4x64 shufflePd
  exact mk64_congr rfl rfl
theorem permute_3120 (q : M256) :
    permute4x64 q (MM_SHUFFLE 3 1 2 0) = ⟨shufflePd q.lo q.hi 0, shufflePd q.lo q.hi 3⟩ := by
  unfold permute4x64 shufflePd
  rw [M256.mk.injEq]
  exact ⟨mk64_congr rfl rfl, mk64_congr rfl rfl⟩

theorem lane_pd0 {w : Nat} (hw : w = 8 ∨ w = 16 ∨ w = 32) (a b : M128) {i : Nat} (h : i < 128 / w) :
    lane w i (shufflePd a b 0) = if i < 64 / w then lane w i a else lane w (i - 64 / w) b := by
  rcases hw with rfl | rfl | rfl <;> leaf h
theorem lane_pd3 {w : Nat} (hw : w = 8 ∨ w = 16 ∨ w = 32) (a b : M128) {i : Nat} (h : i < 128 / w) :
    lane w i (shufflePd a b 3) = if i < 64 / w then lane w (i + 64 / w) a else lane w i b := by
  rcases hw with rfl | rfl | rfl <;> leaf h

/-- Lanes of a register pair. -/
theorem lane256_lo {w i : Nat} (h : i < 128 / w) (r : M256) : lane256 w i r = lane w i r.lo := if_pos h
theorem lane256_hi {w i : Nat} (h : ¬ i < 128 / w) (r : M256) : lane256 w i r = lane w (i - 128 / w) r.hi := if_neg h

theorem lane256_map2 {w i : Nat} (hw : w = 8 ∨ w = 16 ∨ w = 32 ∨ w = 64) (h : i < 256 / w) (f : BitVec w → BitVec w → BitVec w) (a b : M256) :
    lane256 w i (blk2 (map2 w f) a b) = f (lane256 w i a) (lane256 w i b) := by
  unfold lane256 blk2
  by_cases h' : i < 128 / w
  · simp only [if_pos h']; exact lane_map2 ⟨hw, h'⟩ f _ _
  · simp only [if_neg h']
    exact lane_map2 ⟨hw, by rcases hw with rfl | rfl | rfl | rfl <;> omega⟩ f _ _

theorem lane256_promote (s : Bool) {f g : Nat} (hp : Widens f g) (v : M128) {i : Nat} (h : i < 256 / g) :
    lane256 g i (PromoteTo256 s f g v) = BitVec.ofInt g (val s (lane f i v)) := by
  have hg : g = 16 ∨ g = 32 ∨ g = 64 := by
    unfold Widens at hp; rcases hp with ⟨rfl, h⟩ | ⟨rfl, h⟩ | ⟨rfl, h⟩ <;> omega
  rw [ofInt_val_ext]
  unfold PromoteTo256 cvtepu256 cvtepi256 lane256
  by_cases h' : i < 128 / g
  · rw [if_pos h']
    cases s
    · simp only [Bool.false_eq_true, if_false]
      exact lane_mk (by omega) (by rcases hg with rfl | rfl | rfl <;> omega) _
    · simp only [if_true]
      exact lane_mk (by omega) (by rcases hg with rfl | rfl | rfl <;> omega) _
  · rw [if_neg h']
    have e : 128 / g + (i - 128 / g) = i := by omega
    cases s
    · simp only [Bool.false_eq_true, if_false]
      rw [lane_mk (by omega) (by rcases hg with rfl | rfl | rfl <;> omega), e]
    · simp only [if_true]
      rw [lane_mk (by omega) (by rcases hg with rfl | rfl | rfl <;> omega), e]

/-- The lower part of a wide lane. -/
theorem extract_lo {w m : Nat} (hm : 0 < m) (i : Nat) (r : M128) : (lane (w * m) i r).extractLsb' 0 w = lane w (m * i) r :=
  (lane_sub w m i 0 hm r).symm

theorem trunc256_part {f n : Nat} (hp : (f = 32 ∧ (n = 16 ∨ n = 8)) ∨ (f = 16 ∧ n = 8)) (v : M256) {i : Nat} (h : i < 256 / f) :
    lane n i (TruncateTo256 f n v) = (lane256 f i v).extractLsb' 0 n := by
  obtain ⟨lo, hi⟩ := v
  unfold TruncateTo256 LookupAndConcatHalves LookupAndConcatQuarters lane256
  rcases hp with ⟨rfl, (rfl | rfl)⟩ | ⟨rfl, rfl⟩
  · simp only [Nat.reduceEqDiff, if_true, if_false, permute_CC, blk2]
    have e1 := extract_lo (w := 16) (m := 2) (by omega) i lo
    have e2 := extract_lo (w := 16) (m := 2) (by omega) (i - 4) hi
    simp only [Nat.reduceMul] at e1 e2
    rw [apply_ite (BitVec.extractLsb' 0 16), show (128 / 32 : Nat) = 4 from rfl, e1, e2]
    apply Sym.lanesW (hi := h)
    · decide
    · decide
    · exact sym_shufflePd _ (sym_shuffle8z sym_a (sym_ofBytes _)) (sym_shuffle8z sym_b (sym_ofBytes _))
    · decide +kernel
  · simp only [if_true, permute_CC, blk2, LowerHalf]
    have e1 := extract_lo (w := 8) (m := 4) (by omega) i lo
    have e2 := extract_lo (w := 8) (m := 4) (by omega) (i - 4) hi
    simp only [Nat.reduceMul] at e1 e2
    rw [apply_ite (BitVec.extractLsb' 0 8), show (128 / 32 : Nat) = 4 from rfl, e1, e2]
    apply Sym.lanesW (hi := h)
    · decide
    · decide
    · exact sym_packus32
        (sym_shufflePd _ (sym_shuffle8z sym_a (sym_of16 _)) (sym_shuffle8z sym_b (sym_of16 _)))
        (sym_shufflePd _ (sym_shuffle8z sym_a (sym_of16 _)) (sym_shuffle8z sym_b (sym_of16 _)))
    · decide +kernel
  · simp only [Nat.reduceEqDiff, if_false, permute_CC, blk2]
    have e1 := extract_lo (w := 8) (m := 2) (by omega) i lo
    have e2 := extract_lo (w := 8) (m := 2) (by omega) (i - 8) hi
    simp only [Nat.reduceMul] at e1 e2
    rw [apply_ite (BitVec.extractLsb' 0 8), show (128 / 16 : Nat) = 8 from rfl, e1, e2]
    apply Sym.lanesW (hi := h)
    · decide
    · decide
    · exact sym_shufflePd _ (sym_shuffle8z sym_a (sym_ofBytes _)) (sym_shuffle8z sym_b (sym_ofBytes _))
    · decide +kernel

theorem concatEven16_256 (hi lo : M256) {i : Nat} (h : i < 16) :
    lane256 16 i (ConcatEven16_256 hi lo) =
      if i < 8 then (lane256 32 i lo).extractLsb' 0 16 else (lane256 32 (i - 8) hi).extractLsb' 0 16 := by
  obtain ⟨hl, hh⟩ := hi
  obtain ⟨ll, lh⟩ := lo
  unfold ConcatEven16_256
  rw [permute_3120]
  have ex : ∀ k r, (lane 32 k r).extractLsb' 0 16 = lane 16 (2 * k) r := extract_lo (w := 16) (m := 2) (by omega)
  have key : ∀ (a b : M128) {k : Nat}, k < 8 → lane 16 k (packus 32 (And a (set 32 0x0000FFFF#32)) (And b (set 32 0x0000FFFF#32)))
      = if k < 4 then lane 16 (2 * k) a else lane 16 (2 * (k - 4)) b := by
    intro a b k hk; leaf hk
  simp only [lane256, blk2]
  rw [show (128 / 16 : Nat) = 8 from rfl, show (128 / 32 : Nat) = 4 from rfl]
  by_cases h8 : i < 8
  · rw [if_pos h8, if_pos h8, lane_pd0 (by omega) _ _ (by omega), show (64 / 16 : Nat) = 4 from rfl]
    by_cases h4 : i < 4
    · rw [if_pos h4, if_pos h4, key _ _ (by omega), if_pos h4, ex]
    · rw [if_neg h4, if_neg h4, key _ _ (by omega), if_pos (by omega), ex]
  · rw [if_neg h8, if_neg h8, lane_pd3 (by omega) _ _ (by omega), show (64 / 16 : Nat) = 4 from rfl]
    by_cases h4 : i - 8 < 4
    · rw [if_pos h4, if_pos h4, key _ _ (by omega), if_neg (by omega), ex, Nat.add_sub_cancel]
    · rw [if_neg h4, if_neg h4, key _ _ (by omega), if_neg (by omega), ex]

/-- Lanes of the saturating packs. -/
theorem lane_pack (s : Bool) {w : Nat} (hw : w = 16 ∨ w = 32) (a b : M128) {i : Nat} (h : i < 256 / w) :
    lane (w / 2) i (if s then packs w a b else packus w a b)
      = satLane s (w / 2) (val true (if i < 128 / w then lane w i a else lane w (i - 128 / w) b)) := by
  by_cases h' : i < 128 / w
  · rw [if_pos h']
    cases s
    · simp only [Bool.false_eq_true, if_false]; exact lane_packus_lo hw a b h'
    · simp only [if_true]; exact lane_packs_lo hw a b h'
  · rw [if_neg h']
    obtain ⟨j, rfl⟩ := Nat.exists_eq_add_of_le (Nat.le_of_not_lt h')
    rw [Nat.add_sub_cancel_left]
    have hj : j < 128 / w := by rcases hw with rfl | rfl <;> omega
    cases s
    · simp only [Bool.false_eq_true, if_false]; exact lane_packus_hi hw a b hj
    · simp only [if_true]; exact lane_packs_hi hw a b hj

theorem pack_ite (s : Bool) (w : Nat) (a b : M256) :
    (if s then blk2 (packs w) a b else blk2 (packus w) a b)
      = ⟨if s then packs w a.lo b.lo else packus w a.lo b.lo, if s then packs w a.hi b.hi else packus w a.hi b.hi⟩ := by
  cases s <;> rfl

theorem demote256 (s : Bool) {w : Nat} (hw : w = 16 ∨ w = 32) (v : M256) {i : Nat} (h : i < 256 / w) :
    lane (w / 2) i (castsi256 (permute4x64 (if s then blk2 (packs w) v v else blk2 (packus w) v v) 0x88))
      = satLane s (w / 2) (val true (lane256 w i v)) := by
  rw [permute_88, pack_ite, lane_pd0 (by omega) _ _ (by rcases hw with rfl | rfl <;> omega)]
  have e : 64 / (w / 2) = 128 / w := by rcases hw with rfl | rfl <;> rfl
  simp only [lane256, e]
  by_cases h' : i < 128 / w
  · rw [if_pos h', if_pos h', lane_pack s hw _ _ (by rcases hw with rfl | rfl <;> omega), if_pos h']
  · have h2 : i - 128 / w < 128 / w := by rcases hw with rfl | rfl <;> omega
    rw [if_neg h', if_neg h', lane_pack s hw _ _ (by rcases hw with rfl | rfl <;> omega), if_pos h2]

theorem demoteI32_256 (s : Bool) {n : Nat} (hn : n = 16 ∨ n = 8) (v : M256) {i : Nat} (h : i < 8) :
    lane n i (DemoteI32_256 s n v) = satLane s n (val true (lane256 32 i v)) := by
  unfold DemoteI32_256
  rcases hn with rfl | rfl
  · simp only [if_true]; exact demote256 s (Or.inr rfl) v h
  · simp only [Nat.reduceEqDiff, if_false]
    have e := demote256 true (Or.inr rfl) v h
    simp only [if_true] at e
    have e2 := lane_pack s (w := 16) (Or.inl rfl) (castsi256 (permute4x64 (blk2 (packs 32) v v) 0x88))
      (castsi256 (permute4x64 (blk2 (packs 32) v v) 0x88)) (i := i) (by omega)
    refine e2.trans ?_
    rw [if_pos h, show lane 16 i (castsi256 (permute4x64 (blk2 (packs 32) v v) 0x88)) = _ from e]
    apply satLane_of_val _ (Or.inr (Or.inl rfl))
    apply satLane_congr
    cases s <;> simp only [lo, hi, if_true, if_false, Bool.false_eq_true] <;> omega

theorem demoteI16_256 (s : Bool) (v : M256) {i : Nat} (h : i < 16) :
    lane 8 i (DemoteI16_256 s v) = satLane s 8 (val true (lane256 16 i v)) := demote256 s (Or.inl rfl) v h

theorem orderedDemote2I32_256 (s : Bool) (a b : M256) {i : Nat} (h : i < 16) :
    lane256 16 i (OrderedDemote2I32_256 s a b)
      = satLane s 16 (val true (if i < 8 then lane256 32 i a else lane256 32 (i - 8) b)) := by
  unfold OrderedDemote2I32_256
  rw [permute_3120, pack_ite]
  simp only [lane256]
  rw [show (128 / 16 : Nat) = 8 from rfl, show (128 / 32 : Nat) = 4 from rfl]
  have key : ∀ (a b : M128) {k : Nat}, k < 8 → lane 16 k (if s then packs 32 a b else packus 32 a b)
      = satLane s 16 (val true (if k < 4 then lane 32 k a else lane 32 (k - 4) b)) := fun a b k hk =>
    lane_pack s (Or.inr rfl) a b hk
  by_cases h8 : i < 8
  · rw [if_pos h8, if_pos h8, lane_pd0 (by omega) _ _ (by omega), show (64 / 16 : Nat) = 4 from rfl]
    by_cases h4 : i < 4
    · rw [if_pos h4, if_pos h4, key _ _ (by omega), if_pos h4]
    · rw [if_neg h4, if_neg h4, key _ _ (by omega), if_pos (by omega)]
  · rw [if_neg h8, if_neg h8, lane_pd3 (by omega) _ _ (by omega), show (64 / 16 : Nat) = 4 from rfl]
    by_cases h4 : i - 8 < 4
    · rw [if_pos h4, if_pos h4, key _ _ (by omega), if_neg (by omega), Nat.add_sub_cancel]
    · rw [if_neg h4, if_neg h4, key _ _ (by omega), if_neg (by omega)]

end Hwy.X86
