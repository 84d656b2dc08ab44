import Verif.X86Lanes

/-! Comparisons, selection and shifts of the x86 128-bit targets. -/

namespace Hwy.X86

theorem InReg.lt2 {i : Nat} (h : InReg 64 i) : i = 0 ∨ i = 1 := by have := h.2; omega

theorem inReg32 {i : Nat} (h : i < 4) : InReg 32 i := ⟨by omega, by omega⟩

/-! ### 64-bit equality through 32-bit halves -/

theorem ite_and_ite {p q : Prop} [Decidable p] [Decidable q] (w : Nat) :
    ((if p then BitVec.allOnes w else 0#w) &&& (if q then BitVec.allOnes w else 0#w))
      = if p ∧ q then BitVec.allOnes w else 0#w := by
  by_cases hp : p <;> by_cases hq : q <;> simp [hp, hq]

theorem lane_eq64 (a b : M128) {i : Nat} (h : InReg 64 i) :
    lane 64 i (And (cmpeq 32 a b) (Shuffle2301 (cmpeq 32 a b)))
      = if lane 64 i a = lane 64 i b then BitVec.allOnes 64 else 0#64 := by
  have hi : i = 0 ∨ i = 1 := h.lt2
  have sh0 : lane 32 (2 * i) (Shuffle2301 (cmpeq 32 a b)) = lane 32 (2 * i + 1) (cmpeq 32 a b) := by
    unfold Shuffle2301
    rcases hi with rfl | rfl <;> rw [lane_shuffle32 (by omega)] <;> rfl
  have sh1 : lane 32 (2 * i + 1) (Shuffle2301 (cmpeq 32 a b)) = lane 32 (2 * i) (cmpeq 32 a b) := by
    unfold Shuffle2301
    rcases hi with rfl | rfl <;> rw [lane_shuffle32 (by omega)] <;> rfl
  have e0 := lane_cmpeq (inReg32 (i := 2 * i) (by omega)) a b
  have e1 := lane_cmpeq (inReg32 (i := 2 * i + 1) (by omega)) a b
  rw [lo32 i a, lo32 i b] at e0
  rw [hi32 i a, hi32 i b] at e1
  have key : (if lane 64 i a = lane 64 i b then BitVec.allOnes 64 else 0#64)
      = if (lane 64 i a).extractLsb' 0 32 = (lane 64 i b).extractLsb' 0 32 ∧
          (lane 64 i a).extractLsb' 32 32 = (lane 64 i b).extractLsb' 32 32 then BitVec.allOnes 64 else 0#64 := by
    simp only [allOnes_append_iff (lane 64 i a) (lane 64 i b)]
  rw [key]
  apply lane64_ext
  · rw [lane_And, sh0, e0, e1, ite_and_ite]
    split <;> rfl
  · rw [lane_And, sh1, e0, e1, Std.Commutative.comm (op := (· &&& · : BitVec 32 → _ → _)), ite_and_ite]
    split <;> rfl

/-- `==` on every target and every integer width: all ones exactly in the lanes that are equal. -/
theorem C62_eq (t : Tgt) {w i : Nat} (h : InReg w i) (a b : M128) :
    lane w i (Eq t w a b) = if lane w i a = lane w i b then BitVec.allOnes w else 0#w := by
  unfold Eq
  split
  · rename_i h'; obtain ⟨rfl, _⟩ := h'
    exact lane_eq64 a b h
  · exact lane_cmpeq h a b

/-! ### 64-bit signed comparison through 32-bit halves -/

theorem extLo (x : BitVec 64) : (x.extractLsb' 0 32).toNat = x.toNat % 2 ^ 32 := by
  simp [BitVec.extractLsb'_toNat]
theorem extHi (x : BitVec 64) : (x.extractLsb' 32 32).toNat = x.toNat / 2 ^ 32 := by
  have := x.isLt
  rw [BitVec.extractLsb'_toNat, Nat.shiftRight_eq_div_pow]
  exact Nat.mod_eq_of_lt (by omega)

theorem gt64_key (x y : BitVec 64) :
    ((if (y.extractLsb' 32 32).toInt < (x.extractLsb' 32 32).toInt then BitVec.allOnes 32 else 0#32) |||
      ((if x.extractLsb' 32 32 = y.extractLsb' 32 32 then BitVec.allOnes 32 else 0#32) &&&
        (y - x).extractLsb' 32 32))
      = if y.toInt < x.toInt then BitVec.allOnes 32 else 0#32 := by
  have hx := x.isLt
  have hy := y.isLt
  have xh := extHi x
  have yh := extHi y
  by_cases e : x.extractLsb' 32 32 = y.extractLsb' 32 32
  · have e' := congrArg BitVec.toNat e
    rw [xh, yh] at e'
    rw [if_neg (by rw [e]; omega), if_pos e]
    have hs : (y - x).toNat = (2 ^ 64 - x.toNat + y.toNat) % 2 ^ 64 := BitVec.toNat_sub y x
    have hd := extHi (y - x)
    by_cases c : y.toNat < x.toNat
    · rw [if_pos (by rw [BitVec.toInt_eq_toNat_cond, BitVec.toInt_eq_toNat_cond]; split <;> split <;> omega)]
      have : (y - x).extractLsb' 32 32 = BitVec.allOnes 32 := by
        apply BitVec.eq_of_toNat_eq
        rw [hd, hs, BitVec.toNat_allOnes]
        omega
      rw [this]; decide
    · rw [if_neg (by rw [BitVec.toInt_eq_toNat_cond, BitVec.toInt_eq_toNat_cond]; split <;> split <;> omega)]
      have : (y - x).extractLsb' 32 32 = 0#32 := by
        apply BitVec.eq_of_toNat_eq
        rw [hd, hs, BitVec.toNat_ofNat]
        omega
      rw [this]; decide
  · have e' : x.toNat / 2 ^ 32 ≠ y.toNat / 2 ^ 32 := by
      intro h; apply e; apply BitVec.eq_of_toNat_eq; rw [xh, yh, h]
    rw [if_neg e]
    have : ((y.extractLsb' 32 32).toInt < (x.extractLsb' 32 32).toInt) ↔ y.toInt < x.toInt := by
      rw [BitVec.toInt_eq_toNat_cond, BitVec.toInt_eq_toNat_cond, BitVec.toInt_eq_toNat_cond x,
        BitVec.toInt_eq_toNat_cond y, xh, yh]
      split <;> split <;> split <;> split <;> omega
    simp only [this]
    split <;> simp

theorem lane_gt64 (a b : M128) {i : Nat} (h : InReg 64 i) :
    lane 64 i (shuffle32 (OrAnd (cmpgt 32 a b) (cmpeq 32 a b) (Sub 64 b a)) (MM_SHUFFLE 3 3 1 1))
      = if (lane 64 i b).toInt < (lane 64 i a).toInt then BitVec.allOnes 64 else 0#64 := by
  have hi : i = 0 ∨ i = 1 := h.lt2
  have up : lane 32 (2 * i + 1) (OrAnd (cmpgt 32 a b) (cmpeq 32 a b) (Sub 64 b a))
      = if (lane 64 i b).toInt < (lane 64 i a).toInt then BitVec.allOnes 32 else 0#32 := by
    unfold OrAnd
    rw [lane_Or, lane_And, lane_cmpeq (inReg32 (by omega)), lane_cmpgt (inReg32 (by omega)),
      hi32 i a, hi32 i b, hi32 i (Sub 64 b a), lane_Sub h]
    exact gt64_key _ _
  apply lane64_ext
  · have : lane 32 (2 * i) (shuffle32 (OrAnd (cmpgt 32 a b) (cmpeq 32 a b) (Sub 64 b a)) (MM_SHUFFLE 3 3 1 1))
        = lane 32 (2 * i + 1) (OrAnd (cmpgt 32 a b) (cmpeq 32 a b) (Sub 64 b a)) := by
      rcases hi with rfl | rfl <;> rw [lane_shuffle32 (by omega)] <;> rfl
    rw [this, up]; split <;> rfl
  · have : lane 32 (2 * i + 1) (shuffle32 (OrAnd (cmpgt 32 a b) (cmpeq 32 a b) (Sub 64 b a)) (MM_SHUFFLE 3 3 1 1))
        = lane 32 (2 * i + 1) (OrAnd (cmpgt 32 a b) (cmpeq 32 a b) (Sub 64 b a)) := by
      rcases hi with rfl | rfl <;> rw [lane_shuffle32 (by omega)] <;> rfl
    rw [this, up]; split <;> rfl

theorem lane_GtI (t : Tgt) {w i : Nat} (h : InReg w i) (a b : M128) :
    lane w i (GtI t w a b)
      = if (lane w i b).toInt < (lane w i a).toInt then BitVec.allOnes w else 0#w := by
  unfold GtI
  split
  · rename_i h'; obtain ⟨rfl, _⟩ := h'
    exact lane_gt64 a b h
  · exact lane_cmpgt h a b

/-- Flipping the top bit turns unsigned order into signed order. -/
theorem toInt_xor_msb {w : Nat} (hw : w = 8 ∨ w = 16 ∨ w = 32 ∨ w = 64) (x m : BitVec w)
    (hm : m = BitVec.intMin w) : (x ^^^ m).toInt = (x.toNat : Int) - 2 ^ (w - 1) := by
  have hw0 : 0 < w := by omega
  have hadd : x ^^^ m = x + m := by
    rw [hm]
    apply BitVec.eq_of_getLsbD_eq
    intro k hk
    rw [BitVec.getLsbD_xor, BitVec.getLsbD_intMin]
    unfold BitVec.getLsbD
    rw [BitVec.toNat_add, BitVec.toNat_intMin, Nat.testBit_mod_two_pow,
      Nat.mod_eq_of_lt (Nat.pow_lt_pow_right (by omega) (by omega)), Nat.add_comm x.toNat]
    by_cases h : k = w - 1
    · subst h; rw [Nat.testBit_two_pow_add_eq]; simp [show w - 1 < w by omega, show w - 1 + 1 = w by omega]
    · rw [Nat.testBit_two_pow_add_gt (by omega)]
      simp [hk, show ¬ (k + 1 = w) by omega]
  rw [hadd, hm, BitVec.toInt_eq_toNat_cond, BitVec.toNat_add, BitVec.toNat_intMin]
  have := x.isLt
  rcases hw with rfl | rfl | rfl | rfl <;> simp only [Nat.reducePow, Nat.reduceSub] at * <;>
    split <;> omega

theorem msb_const {w : Nat} (hw : w = 8 ∨ w = 16 ∨ w = 32 ∨ w = 64) :
    BitVec.ofNat w ((2 ^ w - 1) / 2 + 1) = BitVec.intMin w := by
  rcases hw with rfl | rfl | rfl | rfl <;> decide +kernel

theorem msb_const' {w : Nat} (hw : w = 8 ∨ w = 16 ∨ w = 32 ∨ w = 64) :
    1#w <<< (w - 1) = BitVec.intMin w := by
  rcases hw with rfl | rfl | rfl | rfl <;> decide +kernel

theorem lane_GtU (t : Tgt) {w i : Nat} (h : InReg w i) (a b : M128) :
    lane w i (GtU t w a b)
      = if (lane w i b).toNat < (lane w i a).toNat then BitVec.allOnes w else 0#w := by
  unfold GtU
  rw [lane_GtI t h, lane_Xor, lane_Xor, lane_set h, toInt_xor_msb h.1 _ _ (msb_const h.1),
    toInt_xor_msb h.1 _ _ (msb_const h.1)]
  by_cases c : (lane w i b).toNat < (lane w i a).toNat
  · rw [if_pos c, if_pos (by omega)]
  · rw [if_neg c, if_neg (by omega)]

/-! ### Specification: the order of a lane type -/

/-- The number a lane stands for. -/
def val (signed : Bool) {w : Nat} (x : BitVec w) : Int := if signed then x.toInt else x.toNat

/-- A mask lane: all ones for true, zero for false. -/
def maskLane (w : Nat) (p : Prop) [Decidable p] : BitVec w := if p then BitVec.allOnes w else 0#w

theorem maskLane_congr {w : Nat} {p q : Prop} [Decidable p] [Decidable q] (h : p ↔ q) :
    maskLane w p = maskLane w q := by unfold maskLane; simp only [h]

theorem C62_gt (t : Tgt) (signed : Bool) {w i : Nat} (h : InReg w i) (a b : M128) :
    lane w i (Gt t signed w a b) = maskLane w (val signed (lane w i a) > val signed (lane w i b)) := by
  unfold Gt val maskLane
  cases signed
  · simp only [Bool.false_eq_true, if_false, lane_GtU t h, gt_iff_lt, Int.ofNat_lt]
  · simp only [if_true, lane_GtI t h, gt_iff_lt]

theorem not_maskLane {w : Nat} (p : Prop) [Decidable p] : ~~~(maskLane w p) = maskLane w (¬ p) := by
  unfold maskLane; by_cases h : p <;> simp [h]

theorem C62_ge (t : Tgt) (signed : Bool) {w i : Nat} (h : InReg w i) (a b : M128) :
    lane w i (Ge t signed w a b) = maskLane w (val signed (lane w i a) ≥ val signed (lane w i b)) := by
  unfold Ge MNot
  rw [lane_Not h, C62_gt t signed h, not_maskLane]
  exact maskLane_congr (by omega)

theorem C62_lt (t : Tgt) (signed : Bool) {w i : Nat} (h : InReg w i) (a b : M128) :
    lane w i (Lt t signed w a b) = maskLane w (val signed (lane w i a) < val signed (lane w i b)) :=
  C62_gt t signed h b a

theorem C62_le (t : Tgt) (signed : Bool) {w i : Nat} (h : InReg w i) (a b : M128) :
    lane w i (Le t signed w a b) = maskLane w (val signed (lane w i a) ≤ val signed (lane w i b)) :=
  C62_ge t signed h b a

theorem C62_ne (t : Tgt) {w i : Nat} (h : InReg w i) (a b : M128) :
    lane w i (Ne t w a b) = maskLane w (lane w i a ≠ lane w i b) := by
  unfold Ne MNot
  rw [lane_Not h, C62_eq t h]; exact not_maskLane _

theorem C62_testBit (t : Tgt) {w i : Nat} (h : InReg w i) (v bit : M128) (k : Nat) (hk : k < w)
    (hb : lane w i bit = 1#w <<< k) :
    lane w i (TestBit t w v bit) = maskLane w ((lane w i v).getLsbD k = true) := by
  unfold TestBit
  rw [C62_eq t h, lane_And, hb]
  apply maskLane_congr
  have : (1#w <<< k) = BitVec.twoPow w k := by
    apply BitVec.eq_of_getLsbD_eq; intro n hn
    rw [BitVec.getLsbD_shiftLeft, BitVec.getLsbD_twoPow, BitVec.getLsbD_one]
    by_cases c : n < k
    · simp [c, show ¬ k = n by omega]
    · by_cases c2 : k = n
      · subst c2; simp [hk]; omega
      · simp [c, c2, show ¬ n - k = 0 by omega]
  rw [this]
  constructor
  · intro e
    have := congrArg (fun z => z.getLsbD k) e
    simpa [hk] using this
  · intro e
    apply BitVec.eq_of_getLsbD_eq; intro n hn
    rw [BitVec.getLsbD_and, BitVec.getLsbD_twoPow]
    by_cases c : k = n
    · subst c; simp [e]
    · simp [c]

/-! ### Selection -/

/-- `blendv` byte by byte follows a wider mask lane. -/
theorem lane_blendv8 {w i : Nat} (h : InReg w i) (a b m : M128) (p : Prop) [Decidable p]
    (hm : lane w i m = maskLane w p) :
    lane w i (blendv 8 a b m) = if p then lane w i b else lane w i a := by
  have hw := h.pos
  have hle := h.le
  have h8 : w % 8 = 0 := by rcases h.1 with rfl | rfl | rfl | rfl <;> rfl
  apply lane_ext; intro k hk
  rw [getLsbD_lane]
  unfold blendv
  rw [getLsbD_mk 8 (by omega)]
  have hwi : w * i % 8 = 0 := by rw [Nat.mul_mod, h8]; simp
  have hn : w * i + k < 128 := by omega
  have hj : (w * i + k) / 8 < 16 := by omega
  -- the mask byte covering this bit
  have hbyte : (lane 8 ((w * i + k) / 8) m).msb = decide p := by
    rw [BitVec.msb_eq_getLsbD_last, getLsbD_lane]
    have hk7 : 8 * ((w * i + k) / 8) + 7 = w * i + (8 * (k / 8) + 7) := by omega
    have hlt : 8 * (k / 8) + 7 < w := by omega
    have := congrArg (fun z => z.getLsbD (8 * (k / 8) + 7)) hm
    simp only [getLsbD_lane, hlt, decide_true, Bool.true_and] at this
    rw [show (8 - 1) = 7 from rfl, hk7, this]
    unfold maskLane
    by_cases c : p <;> simp [c, hlt]
  rw [hbyte]
  have e8 : 8 * ((w * i + k) / 8) + (w * i + k) % 8 = w * i + k := Nat.div_add_mod _ 8
  have m8 : (w * i + k) % 8 < 8 := Nat.mod_lt _ (by omega)
  by_cases c : p
  · simp only [c, decide_true, if_true, getLsbD_lane, e8, m8, hn, hj, hk, Bool.true_and, Bool.and_self,
      show 128 / 8 = 16 from rfl]
  · simp only [c, decide_false, if_false, Bool.false_eq_true, decide_true, getLsbD_lane, e8, m8, hn, hj, hk,
      Bool.true_and, Bool.and_self, show 128 / 8 = 16 from rfl]

theorem select_maskLane {w : Nat} (p : Prop) [Decidable p] (x y : BitVec w) :
    (maskLane w p &&& x) ||| (~~~(maskLane w p) &&& y) = if p then x else y := by
  unfold maskLane
  by_cases h : p <;> simp [h]

theorem lane_IfThenElse (t : Tgt) {w i : Nat} (h : InReg w i) (m yes no : M128) (p : Prop) [Decidable p]
    (hm : lane w i m = maskLane w p) :
    lane w i (IfThenElse t m yes no) = if p then lane w i yes else lane w i no := by
  unfold IfThenElse
  split
  · rw [lane_Or, lane_And, lane_AndNot h, hm, select_maskLane]
  · exact lane_blendv8 h no yes m p hm

/-- A register is a mask for `w`-bit lanes at lane `i`: the only two values masks can take. -/
def IsMaskLane (w i : Nat) (m : M128) : Prop := lane w i m = BitVec.allOnes w ∨ lane w i m = 0#w

/-- Mask lane `i` is true. -/
def isTrue (w i : Nat) (m : M128) : Prop := lane w i m = BitVec.allOnes w

instance (w i : Nat) (m : M128) : Decidable (isTrue w i m) := by unfold isTrue; infer_instance

theorem allOnes_ne_zero {w : Nat} (hw : 0 < w) : (0#w : BitVec w) ≠ BitVec.allOnes w := by
  intro h
  have := congrArg (fun z => z.getLsbD 0) h
  simp [hw] at this

theorem IsMaskLane.eq {w i : Nat} (h : InReg w i) {m : M128} (hm : IsMaskLane w i m) :
    lane w i m = maskLane w (isTrue w i m) := by
  unfold maskLane
  rcases hm with e | e
  · rw [if_pos (show isTrue w i m from e)]; exact e
  · rw [if_neg (by unfold isTrue; rw [e]; exact allOnes_ne_zero h.pos)]; exact e

theorem isMask_of {w i : Nat} {m : M128} {p : Prop} [Decidable p] (e : lane w i m = maskLane w p) :
    IsMaskLane w i m := by
  unfold maskLane at e; unfold IsMaskLane
  by_cases c : p <;> simp [c] at e <;> simp [e]

theorem isTrue_of {w i : Nat} (h : InReg w i) {m : M128} {p : Prop} [Decidable p]
    (e : lane w i m = maskLane w p) : isTrue w i m ↔ p := by
  unfold isTrue; rw [e]; unfold maskLane
  by_cases c : p
  · simp [c]
  · rw [if_neg c]; exact ⟨fun x => (allOnes_ne_zero h.pos x).elim, fun x => (c x).elim⟩

theorem C62_ifThenElse (t : Tgt) {w i : Nat} (h : InReg w i) (m yes no : M128) (hm : IsMaskLane w i m) :
    lane w i (IfThenElse t m yes no) = if isTrue w i m then lane w i yes else lane w i no :=
  lane_IfThenElse t h m yes no _ (hm.eq h)

theorem C62_ifThenElseZero {w i : Nat} (h : InReg w i) (m yes : M128) (hm : IsMaskLane w i m) :
    lane w i (IfThenElseZero m yes) = if isTrue w i m then lane w i yes else 0#w := by
  unfold IfThenElseZero
  rw [lane_And, hm.eq h]; unfold maskLane
  split <;> simp

theorem C62_ifThenZeroElse {w i : Nat} (h : InReg w i) (m no : M128) (hm : IsMaskLane w i m) :
    lane w i (IfThenZeroElse m no) = if isTrue w i m then 0#w else lane w i no := by
  unfold IfThenZeroElse
  rw [lane_AndNot h, hm.eq h]; unfold maskLane
  split <;> simp

/-- The logical operations on masks act lane by lane and yield masks again. -/
theorem C62_mask_logic {w i : Nat} (h : InReg w i) (a b : M128) (ha : IsMaskLane w i a) (hb : IsMaskLane w i b) :
    (IsMaskLane w i (MNot a) ∧ (isTrue w i (MNot a) ↔ ¬ isTrue w i a)) ∧
    (IsMaskLane w i (MAnd a b) ∧ (isTrue w i (MAnd a b) ↔ isTrue w i a ∧ isTrue w i b)) ∧
    (IsMaskLane w i (MAndNot a b) ∧ (isTrue w i (MAndNot a b) ↔ ¬ isTrue w i a ∧ isTrue w i b)) ∧
    (IsMaskLane w i (MOr a b) ∧ (isTrue w i (MOr a b) ↔ isTrue w i a ∨ isTrue w i b)) ∧
    (IsMaskLane w i (MXor a b) ∧ (isTrue w i (MXor a b) ↔ ¬ (isTrue w i a ↔ isTrue w i b))) ∧
    (IsMaskLane w i (ExclusiveNeither a b) ∧
      (isTrue w i (ExclusiveNeither a b) ↔ ¬ isTrue w i a ∧ ¬ isTrue w i b)) := by
  have ea := ha.eq h
  have eb := hb.eq h
  have key : ∀ (m : M128) (p : Prop) [Decidable p], lane w i m = maskLane w p →
      IsMaskLane w i m ∧ (isTrue w i m ↔ p) := fun m p _ e => ⟨isMask_of e, isTrue_of h e⟩
  refine ⟨key _ _ ?_, key _ _ ?_, key _ _ ?_, key _ _ ?_, key _ _ ?_, key _ _ ?_⟩
  · unfold MNot; rw [lane_Not h, ea, not_maskLane]
  · unfold MAnd; rw [lane_And, ea, eb]; unfold maskLane; split <;> split <;> simp_all
  · unfold MAndNot; rw [lane_AndNot h, ea, eb]; unfold maskLane; split <;> split <;> simp_all
  · unfold MOr; rw [lane_Or, ea, eb]; unfold maskLane; split <;> split <;> simp_all
  · unfold MXor; rw [lane_Xor, ea, eb]; unfold maskLane; split <;> split <;> simp_all
  · unfold ExclusiveNeither; rw [lane_AndNot h, lane_Not h, ea, eb]; unfold maskLane
    split <;> split <;> simp_all

end Hwy.X86
