import Verif.X86V256Ops
import Verif.X86V256CompressSpec
import Verif.X86OpsSpec4

/-!
# C76: lane-wise integer operations of 256-bit AVX2 vectors

Each theorem describes every lane `i < 256 / w` of the result in terms of the lanes of the arguments.
-/

namespace Hwy.X86.V256

theorem lift1 {w : Nat} (hw : Width w) {P : BitVec w → BitVec w → Prop} {g : M128 → M128}
    (hg : ∀ i a, InReg w i → P (lane w i a) (lane w i (g a))) {i : Nat} (h : i < 256 / w) (a : M256) :
    P (lane256 w i a) (lane256 w i (blk1 g a)) := by
  by_cases hb : i < 128 / w
  · simp only [lane256_lo hb]; exact hg _ _ (inReg_lo hw hb)
  · simp only [lane256_hi hb]; exact hg _ _ (inReg_hi hw h)
theorem lift2 {w : Nat} (hw : Width w) {P : BitVec w → BitVec w → BitVec w → Prop} {g : M128 → M128 → M128}
    (hg : ∀ i a b, InReg w i → P (lane w i a) (lane w i b) (lane w i (g a b))) {i : Nat} (h : i < 256 / w) (a b : M256) :
    P (lane256 w i a) (lane256 w i b) (lane256 w i (blk2 g a b)) := by
  by_cases hb : i < 128 / w
  · simp only [lane256_lo hb]; exact hg _ _ _ (inReg_lo hw hb)
  · simp only [lane256_hi hb]; exact hg _ _ _ (inReg_hi hw h)
/-- A three-operand instruction on each block. -/
def blk3 (g : M128 → M128 → M128 → M128) (a b c : M256) : M256 := ⟨g a.lo b.lo c.lo, g a.hi b.hi c.hi⟩
theorem lift3 {w : Nat} (hw : Width w) {P : BitVec w → BitVec w → BitVec w → BitVec w → Prop} {g : M128 → M128 → M128 → M128}
    (hg : ∀ i a b c, InReg w i → P (lane w i a) (lane w i b) (lane w i c) (lane w i (g a b c))) {i : Nat} (h : i < 256 / w) (a b c : M256) :
    P (lane256 w i a) (lane256 w i b) (lane256 w i c) (lane256 w i (blk3 g a b c)) := by
  by_cases hb : i < 128 / w
  · simp only [lane256_lo hb]; exact hg _ _ _ _ (inReg_lo hw hb)
  · simp only [lane256_hi hb]; exact hg _ _ _ _ (inReg_hi hw h)

/-! ## Logic -/

/-- `And`, `AndNot` (of the complemented first argument), `Or`, `Xor`, `Not`, `Xor3`, `Or3`, `OrAnd` act on every lane. -/
theorem C76_logic {w : Nat} (hw : Width w) (a b c : M256) {i : Nat} (h : i < 256 / w) :
    lane256 w i (AndQ a b) = lane256 w i a &&& lane256 w i b ∧
    lane256 w i (AndNotQ a b) = ~~~(lane256 w i a) &&& lane256 w i b ∧
    lane256 w i (OrQ a b) = lane256 w i a ||| lane256 w i b ∧
    lane256 w i (XorQ a b) = lane256 w i a ^^^ lane256 w i b ∧
    lane256 w i (VNotQ a) = ~~~(lane256 w i a) ∧
    lane256 w i (Xor3Q a b c) = lane256 w i a ^^^ lane256 w i b ^^^ lane256 w i c ∧
    lane256 w i (Or3Q a b c) = lane256 w i a ||| lane256 w i b ||| lane256 w i c ∧
    lane256 w i (OrAndQ a b c) = lane256 w i a ||| (lane256 w i b &&& lane256 w i c) := by
  have hand : ∀ a b, lane256 w i (AndQ a b) = lane256 w i a &&& lane256 w i b := fun a b => lane_blk2 hw (fun i a b _ => lane_And w i a b) a b h
  have hor : ∀ a b, lane256 w i (OrQ a b) = lane256 w i a ||| lane256 w i b := fun a b => lane_blk2 hw (fun i a b _ => lane_Or w i a b) a b h
  have hxor : ∀ a b, lane256 w i (XorQ a b) = lane256 w i a ^^^ lane256 w i b := fun a b => lane_blk2 hw (fun i a b _ => lane_Xor w i a b) a b h
  refine ⟨hand a b, lane_blk2 (F := fun x y => ~~~x &&& y) hw (fun i a b r => lane_AndNot r a b) a b h, hor a b, hxor a b,
    lane_blk1 (g := X86.Not) (F := fun x => ~~~x) hw (fun i a r => lane_Not r a) a h, ?_, ?_, ?_⟩
  · unfold Xor3Q; rw [hxor, hxor, BitVec.xor_assoc]
  · unfold Or3Q; rw [hor, hor, BitVec.or_assoc]
  · unfold OrAndQ; rw [hor, hand]

/-- `IfThenElse` of integer lanes and of `float`/`double` lanes selects whole lanes by the mask. -/
theorem C76_ifThenElse {w : Nat} (hw : Width w) {m : M256} {p : Nat → Bool} (hm : MaskOf256 w m p) (yes no : M256) {i : Nat} (h : i < 256 / w) :
    lane256 w i (IfThenElse m yes no) = (if p i then lane256 w i yes else lane256 w i no) ∧
    lane256 w i (IfThenElseF w m yes no) = (if p i then lane256 w i yes else lane256 w i no) ∧
    lane256 w i (IfThenElseZeroQ m yes) = (if p i then lane256 w i yes else 0#w) ∧
    lane256 w i (IfThenZeroElseQ m no) = (if p i then 0#w else lane256 w i no) := by
  have e := hm i h
  refine ⟨lane_IfThenElseQ hw hm yes no h, ?_, ?_, ?_⟩
  · have := lift3 (g := fun m y n => blendv w n y m) (P := fun m y n r => r = if m.msb then y else n) hw (fun i a b c r => lane_blendv r c b a) h m yes no
    refine Eq.trans this ?_
    have w0 : 0 < w := by rcases hw with rfl | rfl | rfl | rfl <;> omega
    rw [e, maskLane_msb w0]
  · unfold IfThenElseZeroQ
    rw [(C76_logic hw yes m m h).1, e]
    cases p i <;> simp
  · unfold IfThenZeroElseQ
    rw [(C76_logic hw m no m h).2.1, e]
    cases p i <;> simp

/-- `Not`, `And`, `AndNot`, `Or`, `Xor`, `ExclusiveNeither` of masks. -/
theorem C76_mask_logic {w : Nat} (hw : Width w) {a b : M256} {p q : Nat → Bool} (ha : MaskOf256 w a p) (hb : MaskOf256 w b q) :
    MaskOf256 w (NotQ a) (fun i => !p i) ∧ MaskOf256 w (AndQ a b) (fun i => p i && q i) ∧
    MaskOf256 w (AndNotQ a b) (fun i => !p i && q i) ∧ MaskOf256 w (OrQ a b) (fun i => p i || q i) ∧
    MaskOf256 w (XorQ a b) (fun i => p i ^^ q i) ∧ MaskOf256 w (ExclusiveNeitherQ a b) (fun i => !p i && !q i) := by
  refine ⟨fun i h => ?_, fun i h => ?_, fun i h => ?_, fun i h => ?_, fun i h => ?_, fun i h => ?_⟩
  · have := (C76_logic hw a b b h).2.2.2.2.1
    rw [ha i h] at this
    refine Eq.trans this ?_
    beta_reduce
    cases p i <;> simp
  · rw [(C76_logic hw a b b h).1, ha i h, hb i h]; beta_reduce; cases p i <;> cases q i <;> simp
  · rw [(C76_logic hw a b b h).2.1, ha i h, hb i h]; beta_reduce; cases p i <;> cases q i <;> simp
  · rw [(C76_logic hw a b b h).2.2.1, ha i h, hb i h]; beta_reduce; cases p i <;> cases q i <;> simp
  · rw [(C76_logic hw a b b h).2.2.2.1, ha i h, hb i h]; beta_reduce; cases p i <;> cases q i <;> simp
  · unfold ExclusiveNeitherQ
    rw [(C76_logic hw a (VNotQ b) b h).2.1, (C76_logic hw b b b h).2.2.2.2.1, ha i h, hb i h]; beta_reduce; cases p i <;> cases q i <;> simp

/-! ## Comparisons -/

/-- `==`, `!=`, `>`, `>=`, `<`, `<=` of signed or unsigned integers give the mask of the comparison of the values. -/
theorem C76_compare (signed : Bool) {w : Nat} (hw : Width w) (a b : M256) :
    MaskOf256 w (EqQ w a b) (fun i => decide (lane256 w i a = lane256 w i b)) ∧
    MaskOf256 w (NeQ w a b) (fun i => decide (lane256 w i a ≠ lane256 w i b)) ∧
    MaskOf256 w (GtQ signed w a b) (fun i => decide (val signed (lane256 w i a) > val signed (lane256 w i b))) ∧
    MaskOf256 w (GeQ signed w a b) (fun i => decide (val signed (lane256 w i a) ≥ val signed (lane256 w i b))) ∧
    MaskOf256 w (LtQ signed w a b) (fun i => decide (val signed (lane256 w i a) < val signed (lane256 w i b))) ∧
    MaskOf256 w (LeQ signed w a b) (fun i => decide (val signed (lane256 w i a) ≤ val signed (lane256 w i b))) := by
  have eq : EqQ w a b = blk2 (X86.Eq .avx2 w) a b := by rcases hw with rfl | rfl | rfl | rfl <;> rfl
  have ne : NeQ w a b = blk2 (X86.Ne .avx2 w) a b := by rcases hw with rfl | rfl | rfl | rfl <;> rfl
  have gt : ∀ a b, GtQ signed w a b = blk2 (X86.Gt .avx2 signed w) a b := by
    intro a b; rcases hw with rfl | rfl | rfl | rfl <;> cases signed <;> rfl
  have ge : ∀ a b, GeQ signed w a b = blk2 (X86.Ge .avx2 signed w) a b := by
    intro a b; rcases hw with rfl | rfl | rfl | rfl <;> cases signed <;> rfl
  simp only [MaskOf256, decide_eq_true_eq]
  refine ⟨fun i h => ?_, fun i h => ?_, fun i h => ?_, fun i h => ?_, fun i h => ?_, fun i h => ?_⟩
  · rw [eq]; exact lift2 (P := fun x y r => r = if x = y then BitVec.allOnes w else 0#w) hw (fun i a b r => C62_eq .avx2 r a b) h a b
  · rw [ne]; exact lift2 (P := fun x y r => r = maskLane w (x ≠ y)) hw (fun i a b r => C62_ne .avx2 r a b) h a b
  · rw [gt]; exact lift2 (P := fun x y r => r = maskLane w (val signed x > val signed y)) hw (fun i a b r => C62_gt .avx2 signed r a b) h a b
  · rw [ge]; exact lift2 (P := fun x y r => r = maskLane w (val signed x ≥ val signed y)) hw (fun i a b r => C62_ge .avx2 signed r a b) h a b
  · unfold LtQ; rw [gt]; exact lift2 (P := fun x y r => r = maskLane w (val signed x > val signed y)) hw (fun i a b r => C62_gt .avx2 signed r a b) h b a
  · unfold LeQ; rw [ge]; exact lift2 (P := fun x y r => r = maskLane w (val signed x ≥ val signed y)) hw (fun i a b r => C62_ge .avx2 signed r a b) h b a

/-- `Min` and `Max` of unsigned and of signed integers. -/
theorem C76_minMax {w : Nat} (hw : Width w) (a b : M256) {i : Nat} (h : i < 256 / w) :
    val false (lane256 w i (MinUQ w a b)) = min (val false (lane256 w i a)) (val false (lane256 w i b)) ∧
    val true (lane256 w i (MinIQ w a b)) = min (val true (lane256 w i a)) (val true (lane256 w i b)) ∧
    val false (lane256 w i (MaxUQ w a b)) = max (val false (lane256 w i a)) (val false (lane256 w i b)) ∧
    val true (lane256 w i (MaxIQ w a b)) = max (val true (lane256 w i a)) (val true (lane256 w i b)) := by
  have e1 : MinUQ w a b = blk2 (X86.MinU .avx2 w) a b := by rcases hw with rfl | rfl | rfl | rfl <;> rfl
  have e2 : MinIQ w a b = blk2 (X86.MinI .avx2 w) a b := by rcases hw with rfl | rfl | rfl | rfl <;> rfl
  have e3 : MaxUQ w a b = blk2 (X86.MaxU .avx2 w) a b := by rcases hw with rfl | rfl | rfl | rfl <;> rfl
  have e4 : MaxIQ w a b = blk2 (X86.MaxI .avx2 w) a b := by rcases hw with rfl | rfl | rfl | rfl <;> rfl
  rw [e1, e2, e3, e4]
  exact ⟨lift2 (P := fun x y r => val false r = min (val false x) (val false y)) hw (fun i a b r => (C62_min .avx2 r a b).1) h a b,
    lift2 (P := fun x y r => val true r = min (val true x) (val true y)) hw (fun i a b r => (C62_min .avx2 r a b).2) h a b,
    lift2 (P := fun x y r => val false r = max (val false x) (val false y)) hw (fun i a b r => (C62_max .avx2 r a b).1) h a b,
    lift2 (P := fun x y r => val true r = max (val true x) (val true y)) hw (fun i a b r => (C62_max .avx2 r a b).2) h a b⟩

/-! ## Arithmetic -/

/-- `+`, `-`, `Neg` modulo `2^w`. -/
theorem C76_addSub {w : Nat} (hw : Width w) (a b : M256) {i : Nat} (h : i < 256 / w) :
    lane256 w i (AddQ w a b) = lane256 w i a + lane256 w i b ∧ lane256 w i (SubQ w a b) = lane256 w i a - lane256 w i b ∧
    lane256 w i (NegQ w a) = -(lane256 w i a) := by
  refine ⟨lane_blk2 (F := fun x y => x + y) hw (fun i a b r => lane_Add r a b) a b h,
    lane_blk2 (F := fun x y => x - y) hw (fun i a b r => lane_Sub r a b) a b h, ?_⟩
  refine lift1 (g := fun x => X86.Sub w X86.zero x) (P := fun x r => r = -x) hw (fun i a r => ?_) h a
  rw [lane_Sub r, lane_zero', BitVec.zero_sub]

/-- Saturating addition and subtraction, and the average rounded up, of 8- and 16-bit integers. -/
theorem C76_saturated (signed : Bool) {w : Nat} (hw : w = 8 ∨ w = 16) (a b : M256) {i : Nat} (h : i < 256 / w) :
    val signed (lane256 w i (SaturatedAddQ signed w a b))
      = max (lo signed w) (min (val signed (lane256 w i a) + val signed (lane256 w i b)) (hi signed w)) ∧
    val signed (lane256 w i (SaturatedSubQ signed w a b))
      = max (lo signed w) (min (val signed (lane256 w i a) - val signed (lane256 w i b)) (hi signed w)) ∧
    val signed (lane256 w i (AverageRoundQ signed w a b)) = (val signed (lane256 w i a) + val signed (lane256 w i b) + 1) / 2 := by
  have hW : Width w := by rcases hw with rfl | rfl <;> simp [Width]
  have e1 : SaturatedAddQ signed w a b = blk2 (X86.SaturatedAdd signed w) a b := by cases signed <;> rfl
  have e2 : SaturatedSubQ signed w a b = blk2 (X86.SaturatedSub signed w) a b := by cases signed <;> rfl
  have e3 : AverageRoundQ signed w a b = blk2 (X86.AverageRound signed w) a b := by cases signed <;> rfl
  rw [e1, e2, e3]
  exact ⟨lift2 (P := fun x y r => val signed r = max (lo signed w) (min (val signed x + val signed y) (hi signed w))) hW
      (fun i a b r => C62_saturatedAdd signed r hw a b) h a b,
    lift2 (P := fun x y r => val signed r = max (lo signed w) (min (val signed x - val signed y) (hi signed w))) hW
      (fun i a b r => C62_saturatedSub signed r hw a b) h a b,
    lift2 (P := fun x y r => val signed r = (val signed x + val signed y + 1) / 2) hW
      (fun i a b r => C62_averageRound signed r hw a b) h a b⟩

/-- The bytes of the upper block. -/
theorem byte_hi {k j : Nat} (hk : 2 ≤ k) (r : M256) : lane256 8 (8 * k + j) r = lane 8 (8 * (k - 2) + j) r.hi := by
  rw [lane256_hi (by omega)]; congr 1; omega
theorem byte_lo {k j : Nat} (hk : k < 2) (hj : j < 8) (r : M256) : lane256 8 (8 * k + j) r = lane 8 (8 * k + j) r.lo :=
  lane256_lo (by omega) r

theorem map8_congr {α : Type} {f g : Nat → α} (h : ∀ j, j < 8 → f j = g j) : (List.range 8).map f = (List.range 8).map g :=
  List.map_congr_left (fun j hj => h j (List.mem_range.1 hj))

/-- `SumsOf8` of unsigned and signed bytes: each 64-bit lane is the sum of its eight bytes; `SumsOf8AbsDiff`: of the distances. -/
theorem C76_sumsOf8 (signed : Bool) (a b : M256) {i : Nat} (h : i < 4) :
    val false (lane256 64 i (SumsOf8UQ a)) = ((List.range 8).map (fun j => val false (lane256 8 (8 * i + j) a))).sum ∧
    val true (lane256 64 i (SumsOf8IQ a)) = ((List.range 8).map (fun j => val true (lane256 8 (8 * i + j) a))).sum ∧
    val false (lane256 64 i (SumsOf8AbsDiffQ signed a b)) = ((List.range 8).map (fun j =>
      (Int.natAbs (val signed (lane256 8 (8 * i + j) a) - val signed (lane256 8 (8 * i + j) b)) : Int))).sum := by
  have e1 : SumsOf8UQ a = blk1 X86.SumsOf8U a := rfl
  have e2 : SumsOf8IQ a = blk1 X86.SumsOf8I a := rfl
  have e3 : SumsOf8AbsDiffQ signed a b = blk2 (X86.SumsOf8AbsDiff signed) a b := by cases signed <;> rfl
  rw [e1, e2, e3]
  by_cases hb : i < 2
  · have r : InReg 64 i := ⟨by omega, by omega⟩
    simp only [lane256_lo (w := 64) (i := i) hb]
    refine ⟨(C62_sumsOf8 r a.lo).1.trans ?_, (C62_sumsOf8 r a.lo).2.trans ?_, (C62_sumsOf8AbsDiff signed r a.lo b.lo).trans ?_⟩ <;>
      exact congrArg List.sum (map8_congr (fun j hj => by simp only [byte_lo hb hj]))
  · have r : InReg 64 (i - 2) := ⟨by omega, by omega⟩
    simp only [lane256_hi (w := 64) (i := i) hb]
    refine ⟨(C62_sumsOf8 r a.hi).1.trans ?_, (C62_sumsOf8 r a.hi).2.trans ?_, (C62_sumsOf8AbsDiff signed r a.hi b.hi).trans ?_⟩ <;>
      exact congrArg List.sum (map8_congr (fun j hj => by simp only [byte_hi (Nat.le_of_not_lt hb)]))

/-! ## Shifts -/

/-- Shifts and rotations of every lane by a constant `k < w`. -/
theorem C76_shift {w : Nat} (hw : Width w) (v : M256) {k : Nat} (hk : k < w) {i : Nat} (h : i < 256 / w) :
    lane256 w i (ShiftLeftQ w k v) = lane256 w i v <<< k ∧
    lane256 w i (ShiftRightUQ w k v) = lane256 w i v >>> k ∧
    lane256 w i (ShiftRightIQ w k v) = (lane256 w i v).sshiftRight k ∧
    lane256 w i (RotateRightQ w k v) = (lane256 w i v).rotateRight k ∧
    lane256 w i (BroadcastSignBitQ w v) = (if val true (lane256 w i v) < 0 then BitVec.allOnes w else 0#w) := by
  have e1 : ∀ n v, ShiftLeftQ w n v = blk1 (X86.ShiftLeft w n) v := by
    intro n v; unfold ShiftLeftQ X86.ShiftLeft blk1
    split
    · simp only []; split <;> rfl
    · rfl
  have e2 : ∀ n v, ShiftRightUQ w n v = blk1 (X86.ShiftRightU w n) v := by
    intro n v; unfold ShiftRightUQ X86.ShiftRightU blk1
    split <;> rfl
  have e5 : ∀ v, BroadcastSignBitQ w v = blk1 (X86.BroadcastSignBit .avx2 w) v := by intro v; rcases hw with rfl | rfl | rfl | rfl <;> rfl
  have e3 : ShiftRightIQ w k v = blk1 (X86.ShiftRightI .avx2 w k) v := by rcases hw with rfl | rfl | rfl | rfl <;> rfl
  have e4 : RotateRightQ w k v = blk1 (X86.RotateRight w k) v := by
    unfold RotateRightQ X86.RotateRight
    split
    · rfl
    · rw [e1, e2]; rfl
  rw [e1, e2, e3, e4, e5]
  exact ⟨lift1 (P := fun x r => r = x <<< k) hw (fun i a r => C62_shiftLeft r a k hk) h v,
    lift1 (P := fun x r => r = x >>> k) hw (fun i a r => C62_shiftRight_unsigned r a k hk) h v,
    lift1 (P := fun x r => r = x.sshiftRight k) hw (fun i a r => C62_shiftRight_signed .avx2 r a k hk) h v,
    lift1 (P := fun x r => r = x.rotateRight k) hw (fun i a r => C62_rotateRight r a k hk) h v,
    lift1 (P := fun x r => r = if val true x < 0 then BitVec.allOnes w else 0#w) hw (fun i a r => C62_broadcastSignBit .avx2 r a) h v⟩

/-- Shifts of every lane by the same run-time count `n < w`, whether or not the compiler knows the count. -/
theorem C76_shiftSame (isConst : Bool) {w : Nat} (hw : Width w) (v : M256) {n : Nat} (hn : n < w) {i : Nat} (h : i < 256 / w) :
    lane256 w i (ShiftLeftSameQ isConst w v n) = lane256 w i v <<< n ∧
    lane256 w i (ShiftRightSameUQ isConst w v n) = lane256 w i v >>> n ∧
    lane256 w i (ShiftRightSameIQ isConst w v n) = (lane256 w i v).sshiftRight n := by
  have w64 : w ≤ 64 := by rcases hw with rfl | rfl | rfl | rfl <;> omega
  have s1 : ∀ v k, k ≤ 64 → ShiftLeftSameQ isConst w v k = blk1 (fun x => X86.ShiftLeftSame w x k) v := by
    intro v k hk
    cases isConst
    · rcases hw with rfl | rfl | rfl | rfl <;> rfl
    · unfold ShiftLeftSameQ X86.ShiftLeftSame blk1
      simp only [sll_eq 16 k (by omega), sll_eq w k (by omega)]
      split <;> rfl
  have s2 : ∀ v, ShiftRightSameUQ isConst w v n = blk1 (fun x => X86.ShiftRightSameU w x n) v := by
    intro v
    cases isConst
    · rcases hw with rfl | rfl | rfl | rfl <;> rfl
    · unfold ShiftRightSameUQ X86.ShiftRightSameU blk1
      simp only [srl_eq 16 n (by omega), srl_eq w n (by omega)]
      split <;> rfl
  have s3 : ShiftRightSameIQ isConst w v n = blk1 (fun x => X86.ShiftRightSameI .avx2 w x n) v := by
    unfold ShiftRightSameIQ
    rcases hw with rfl | rfl | rfl | rfl
    · rw [s2]; rfl
    · cases isConst
      · rfl
      · show blk1 (fun x => srai 16 n x) v = _; simp only [← sra_eq 16 n (by omega)]; rfl
    · cases isConst
      · rfl
      · show blk1 (fun x => srai 32 n x) v = _; simp only [← sra_eq 32 n (by omega)]; rfl
    · rw [s2, s1 _ _ (by omega)]; rfl
  rw [s1 _ _ (by omega), s2, s3]
  exact ⟨lift1 (g := fun x => X86.ShiftLeftSame w x n) (P := fun x r => r = x <<< n) hw (fun i a r => C62_shiftLeftSame r a n hn) h v,
    lift1 (g := fun x => X86.ShiftRightSameU w x n) (P := fun x r => r = x >>> n) hw (fun i a r => C62_shiftRightSame_unsigned r a n hn) h v,
    lift1 (g := fun x => X86.ShiftRightSameI .avx2 w x n) (P := fun x r => r = x.sshiftRight n) hw (fun i a r => C62_shiftRightSame_signed .avx2 r a n hn) h v⟩

/-! ## Signs -/

/-- `IfNegativeThenElse` and `IfNegativeThenNegOrUndefIfZero` look only at the sign of the lane. -/
theorem C76_ifNegative {w : Nat} (hw : Width w) (v yes no : M256) {i : Nat} (h : i < 256 / w) :
    lane256 w i (IfNegativeThenElseQ w v yes no) = (if val true (lane256 w i v) < 0 then lane256 w i yes else lane256 w i no) ∧
    (val true (lane256 w i v) ≠ 0 → lane256 w i (IfNegativeThenNegOrUndefIfZeroQ w v yes)
      = if val true (lane256 w i v) < 0 then -(lane256 w i yes) else lane256 w i yes) := by
  have e1 : IfNegativeThenElseQ w v yes no = blk3 (X86.IfNegativeThenElse .avx2 w) v yes no := by rcases hw with rfl | rfl | rfl | rfl <;> rfl
  have e2 : IfNegativeThenNegOrUndefIfZeroQ w v yes = blk2 (X86.IfNegativeThenNegOrUndefIfZero .avx2 w) v yes := by
    rcases hw with rfl | rfl | rfl | rfl <;> rfl
  rw [e1, e2]
  exact ⟨lift3 (P := fun x y z r => r = if val true x < 0 then y else z) hw (fun i a b c r => C62_ifNegativeThenElse .avx2 r a b c) h v yes no,
    lift2 (P := fun x y r => val true x ≠ 0 → r = if val true x < 0 then -y else y) hw
      (fun i a b r hz => C62_ifNegativeThenNegOrUndefIfZero .avx2 r a b hz) h v yes⟩

theorem absQ_blk (msvc : Bool) {w : Nat} (hw : Width w) (v : M256) :
    ∀ {i : Nat}, i < 256 / w → lane256 w i (AbsQ msvc w v) = lane256 w i (blk1 (X86.Abs .avx2 w) v) := by
  intro i h
  by_cases c : w = 8 ∧ msvc = true
  · obtain ⟨rfl, rfl⟩ := c
    show lane256 8 i (blk1 (fun x => maxI 8 x (X86.Sub 8 X86.zero x)) v) = lane256 8 i (blk1 (absI 8) v)
    by_cases hb : i < 128 / 8
    · have r := inReg_lo hw hb
      rw [lane256_lo hb, lane256_lo hb]
      show lane 8 i (maxI 8 v.lo (X86.Sub 8 X86.zero v.lo)) = lane 8 i (absI 8 v.lo)
      rw [show lane 8 i (maxI 8 v.lo (X86.Sub 8 X86.zero v.lo)) = _ from lane_map2 r _ _ _, show lane 8 i (absI 8 v.lo) = _ from lane_map1 r _ _,
        lane_Sub r, lane_zero']
      generalize lane 8 i v.lo = x
      revert x; decide +kernel
    · have r := inReg_hi hw h
      rw [lane256_hi hb, lane256_hi hb]
      show lane 8 _ (maxI 8 v.hi (X86.Sub 8 X86.zero v.hi)) = lane 8 _ (absI 8 v.hi)
      rw [show lane 8 _ (maxI 8 v.hi (X86.Sub 8 X86.zero v.hi)) = _ from lane_map2 r _ _ _, show lane 8 _ (absI 8 v.hi) = _ from lane_map1 r _ _,
        lane_Sub r, lane_zero']
      generalize lane 8 _ v.hi = x
      revert x; decide +kernel
  · have e : AbsQ msvc w v = blk1 (X86.Abs .avx2 w) v := by
      cases msvc
      · rcases hw with rfl | rfl | rfl | rfl <;> rfl
      · rcases hw with rfl | rfl | rfl | rfl
        · exact absurd ⟨rfl, rfl⟩ c
        all_goals rfl
    rw [e]

/-- `Abs` (with and without the MSVC workaround) and `SaturatedAbs`. -/
theorem C76_abs (msvc : Bool) {w : Nat} (hw : Width w) (v : M256) {i : Nat} (h : i < 256 / w) :
    val true (lane256 w i (AbsQ msvc w v)) = (if val true (lane256 w i v) = -(2 ^ (w - 1)) then -(2 ^ (w - 1))
      else (Int.natAbs (val true (lane256 w i v)) : Int)) ∧
    val true (lane256 w i (SaturatedAbsQ msvc w v)) = min (Int.natAbs (val true (lane256 w i v)) : Int) (2 ^ (w - 1) - 1) := by
  have e2 : SaturatedAbsQ msvc w v = blk1 (X86.SaturatedAbs .avx2 w) v := by rcases hw with rfl | rfl | rfl | rfl <;> cases msvc <;> rfl
  rw [absQ_blk msvc hw v h, e2]
  exact ⟨lift1 (P := fun x r => val true r = if val true x = -(2 ^ (w - 1)) then -(2 ^ (w - 1)) else (Int.natAbs (val true x) : Int)) hw
      (fun i a r => C62_abs .avx2 r a) h v,
    lift1 (P := fun x r => val true r = min (Int.natAbs (val true x) : Int) (2 ^ (w - 1) - 1)) hw (fun i a r => C62_saturatedAbs .avx2 r a) h v⟩

/-! ## `ZeroIfNegative` -/

/-- `ZeroIfNegative` of `float`/`double` lanes and of `int8` lanes is correct. -/
theorem C76_zeroIfNegative (flt : Bool) {w : Nat} (hf : if flt then w = 32 ∨ w = 64 else w = 8) (v : M256) {i : Nat} (h : i < 256 / w) :
    lane256 w i (ZeroIfNegativeQ flt w v) = if (lane256 w i v).msb then 0#w else lane256 w i v := by
  have hw : Width w := by
    cases flt
    · rw [if_neg (by simp)] at hf; subst hf; simp [Width]
    · rw [if_pos rfl] at hf; rcases hf with rfl | rfl <;> simp [Width]
  have e : ZeroIfNegativeQ flt w v = blk1 (fun x => blendv w x X86.zero x) v := by
    cases flt
    · rw [if_neg (by simp)] at hf; subst hf; rfl
    · rfl
  rw [e]
  refine lift1 (g := fun x => blendv w x X86.zero x) (P := fun x r => r = if x.msb then 0#w else x) hw (fun i a r => ?_) h v
  rw [lane_blendv r, lane_zero']

/-- CODE FINDING: of wider integers, `ZeroIfNegative` zeroes single bytes: byte `j` is zeroed if its own top bit is set. -/
theorem C76_zeroIfNegative_bytes {w : Nat} (v : M256) {j : Nat} (h : j < 32) :
    lane256 8 j (ZeroIfNegativeQ false w v) = if (lane256 8 j v).msb then 0#8 else lane256 8 j v :=
  C76_zeroIfNegative false (w := 8) rfl v h

/-- CODE FINDING: an `int32` lane with value 128 becomes 0 and one with value -129 becomes 127. -/
theorem C76_finding_zeroIfNegative :
    lane256 32 0 (ZeroIfNegativeQ false 32 (setQ 32 128#32)) = 0#32 ∧
    lane256 32 0 (ZeroIfNegativeQ false 32 (setQ 32 (BitVec.ofInt 32 (-129)))) = 127#32 := by decide +kernel

end Hwy.X86.V256
