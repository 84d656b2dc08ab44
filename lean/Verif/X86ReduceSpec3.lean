import Verif.X86ReduceSpec2

/-!
# C71: reductions, the statements

`val signed x` is the number a lane holds; `IsSum`, `IsMin`, `IsMax` (`X86ReduceSpec.lean`) say what a sum, a minimum and a maximum of
the lanes of a vector are.
-/

namespace Hwy.X86

/-! ## `PHMINPOSUW` -/

theorem foldl_min (x : Nat → BitVec 16) (n : Nat) :
    (List.range n).foldl (fun m j => Nat.min m (x j).toNat) 0xFFFF ≤ 0xFFFF ∧
    (∀ j, j < n → (List.range n).foldl (fun m j => Nat.min m (x j).toNat) 0xFFFF ≤ (x j).toNat) ∧
    ((List.range n).foldl (fun m j => Nat.min m (x j).toNat) 0xFFFF = 0xFFFF ∨
      ∃ j, j < n ∧ (List.range n).foldl (fun m j => Nat.min m (x j).toNat) 0xFFFF = (x j).toNat) := by
  induction n with
  | zero => exact ⟨Nat.le_refl _, fun j hj => by omega, .inl rfl⟩
  | succ n ih =>
    rw [List.range_succ, List.foldl_append, List.foldl_cons, List.foldl_nil]
    generalize (List.range n).foldl (fun m j => Nat.min m (x j).toNat) 0xFFFF = F at ih ⊢
    obtain ⟨h1, h2, h3⟩ := ih
    have hm : Nat.min F (x n).toNat ≤ F ∧ Nat.min F (x n).toNat ≤ (x n).toNat ∧
        (Nat.min F (x n).toNat = F ∨ Nat.min F (x n).toNat = (x n).toNat) :=
      ⟨Nat.min_le_left _ _, Nat.min_le_right _ _, (Nat.le_total F (x n).toNat).imp Nat.min_eq_left Nat.min_eq_right⟩
    generalize Nat.min F (x n).toNat = G at hm ⊢
    refine ⟨by omega, fun j hj => ?_, ?_⟩
    · by_cases hj' : j < n
      · have := h2 j hj'; omega
      · rw [show j = n by omega]; exact hm.2.1
    · rcases hm.2.2 with h | h
      · rcases h3 with h3 | ⟨k, hk, h3⟩
        · exact .inl (by omega)
        · exact .inr ⟨k, by omega, by omega⟩
      · exact .inr ⟨n, by omega, h⟩

theorem minpos_min (v : M128) : IsMin false (lane 16 0 (minpos v)) 8 (fun j => lane 16 j v) := by
  unfold minpos
  simp only []
  rw [lane_mk (by omega) (by omega), if_pos rfl]
  obtain ⟨h1, h2, h3⟩ := foldl_min (fun j => lane 16 j v) 8
  beta_reduce at h1 h2 h3
  generalize (List.range 8).foldl (fun m j => Nat.min m (lane 16 j v).toNat) 0xFFFF = F at *
  have hF : (BitVec.ofNat 16 F).toNat = F := by rw [BitVec.toNat_ofNat]; omega
  refine ⟨fun j hj => ?_, ?_⟩
  · unfold val; simp only [Bool.false_eq_true, if_false]; rw [hF]; exact Int.ofNat_le.2 (h2 j hj)
  · rcases h3 with h3 | ⟨k, hk, h3⟩
    · refine ⟨0, by omega, BitVec.eq_of_toNat_eq ?_⟩
      have := h2 0 (by omega); have := (lane 16 0 v).isLt
      show (BitVec.ofNat 16 F).toNat = (lane 16 0 v).toNat
      omega
    · exact ⟨k, hk, BitVec.eq_of_toNat_eq (by show (BitVec.ofNat 16 F).toNat = (lane 16 k v).toNat; omega)⟩

theorem min16 (t : Tgt) (v : M128) {i : Nat} (hi : i < 8) : IsMin false (lane 16 i (MinOf16x8 t v)) 8 (fun j => lane 16 j v) := by
  unfold MinOf16x8
  rw [C63_broadcast t (by omega) (by omega) _ (by omega)]
  exact minpos_min v

theorem min8 (t : Tgt) (v : M128) {i : Nat} (hi : i < 8) : IsMin false (lane 8 i (MinOf8x8 t v)) 8 (fun j => lane 8 j v) := by
  unfold MinOf8x8
  have h := min16 t (PromoteTo t false 8 16 v) hi
  have hr := red_congr (f := .min) (y := fun j => BitVec.ofInt 16 (val false (lane 8 j v))) h rfl
    (fun j hj => lane_promote t false (.inl ⟨rfl, .inl rfl⟩) v (by omega))
  have := red_narrow hr
  refine red_congr (f := .min) this ?_ (fun _ _ => rfl)
  apply BitVec.eq_of_toNat_eq
  rw [C65_truncateTo t (by simp [Narrows, Widens]) (by omega) (by omega) _ hi, BitVec.toNat_setWidth]

theorem min8x16 (t : Tgt) (v : M128) {i : Nat} (hi : i < 16) : IsMin false (lane 8 i (MinOf8x16 t v)) 16 (fun j => lane 8 j v) := by
  unfold MinOf8x16
  simp only []
  rw [C63_combine (by simp [Shape]) (by decide) _ _ (show i < Lanes 8 16 from hi)]
  have key : ∀ k, k < 8 → IsMin false (lane 8 k (MinU t 8 (MinOf8x8 t (UpperHalf t 8 8 v)) (MinOf8x8 t (LowerHalf v)))) 16 (fun j => lane 8 j v) := by
    intro k hk
    rw [lane_MinU t ⟨by omega, by omega⟩]
    obtain ⟨a1, ka, hka, a2⟩ := min8 t (UpperHalf t 8 8 v) hk
    obtain ⟨b1, kb, hkb, b2⟩ := min8 t (LowerHalf v) hk
    have hu : ∀ j, j < 8 → lane 8 j (UpperHalf t 8 8 v) = lane 8 (8 + j) v :=
      fun j hj => C63_upperHalf t (by simp [Shape]) (by omega) v (show j < Lanes 8 8 from hj)
    have hl : ∀ j, lane 8 j (LowerHalf v) = lane 8 j v := fun j => rfl
    generalize lane 8 k (MinOf8x8 t (UpperHalf t 8 8 v)) = A at *
    generalize lane 8 k (MinOf8x8 t (LowerHalf v)) = B at *
    have ha : ∀ j, j < 8 → A.toNat ≤ (lane 8 (8 + j) v).toNat := fun j hj => by
      have := a1 j hj; beta_reduce at this; rw [hu j hj] at this; simpa [val] using this
    have hb : ∀ j, j < 8 → B.toNat ≤ (lane 8 j v).toNat := fun j hj => by
      have := b1 j hj; beta_reduce at this; rw [hl j] at this; simpa [val] using this
    constructor
    · intro j hj
      have : (if A.toNat < B.toNat then A else B).toNat ≤ (lane 8 j v).toNat := by
        by_cases hj8 : j < 8
        · have := hb j hj8; split <;> omega
        · have := ha (j - 8) (by omega); rw [Nat.add_sub_cancel' (by omega)] at this; split <;> omega
      simpa [val] using this
    · split
      · exact ⟨8 + ka, by omega, by rw [a2]; exact hu ka hka⟩
      · exact ⟨kb, by omega, by rw [b2]; rfl⟩
  split
  · exact key _ (by have : Lanes 8 16 / 2 = 8 := rfl; omega)
  · exact key _ (by have : Lanes 8 16 / 2 = 8 := rfl; omega)

/-! ## `SumOfLanes`, `MinOfLanes`, `MaxOfLanes` -/

theorem one_isRed (f : RFunc) (s : Bool) {w i : Nat} (hi : i < 1) (v : M128) : IsRed f s (lane w i v) 1 (fun j => lane w j v) := by
  rw [show i = 0 by omega]; exact fold_isRed f s (fun j => lane w j v) 0

theorem sum_split (y : Nat → Int) : ((List.range 8).map y).sum + ((List.range 8).map (fun j => y (8 + j))).sum = ((List.range 16).map y).sum := by
  simp only [List.range_succ, List.range_zero, List.map_append, List.map_cons, List.map_nil, List.sum_append, List.sum_cons, List.sum_nil,
    List.nil_append, Nat.reduceAdd]
  omega

/-- `SumOfLanes` puts the sum of all lanes, wrapped to the lane type, into every lane. -/
theorem C71_sumOfLanes (t : Tgt) (signed : Bool) {w sz : Nat} (h : Shape w sz) (v : M128) {i : Nat} (hi : i < Lanes w sz) :
    IsSum signed (lane w i (SumOfLanes t signed w sz v)) (Lanes w sz) (fun j => lane w j v) := by
  unfold SumOfLanes
  by_cases h1 : Lanes w sz = 1
  · rw [if_pos h1, h1]; exact one_isRed .add signed (by omega) v
  rw [if_neg h1]
  have h2 : 2 ≤ Lanes w sz := by rcases lanes_pow5 h with e | e | e | e | e <;> omega
  by_cases h8 : signed = false ∧ w = 8 ∧ sz = 8
  · obtain ⟨rfl, rfl, rfl⟩ := h8
    rw [if_pos (by decide), lane_set (inReg_of h hi)]
    have e := (C62_sumsOf8 (i := 0) ⟨by omega, by omega⟩ v).1
    simp only [Nat.mul_zero, Nat.zero_add] at e
    unfold IsSum
    rw [show Lanes 8 8 = 8 from rfl, ← e, ← trunc64, ofInt_val]
  rw [if_neg h8]
  by_cases h16 : signed = false ∧ w = 8 ∧ sz = 16
  · obtain ⟨rfl, rfl, rfl⟩ := h16
    rw [if_pos (by decide)]
    simp only []
    have hi' : i < 16 := hi
    rw [C63_broadcast t (by omega) (by omega) _ (by omega)]
    have hw := within t false .add (w := 64) (sz := 16) (by simp [Shape]) (by decide) (SumsOf8U v) (i := 0) (by decide)
    have e0 := (C62_sumsOf8 (i := 0) ⟨by omega, by omega⟩ v).1
    have e1 := (C62_sumsOf8 (i := 1) ⟨by omega, by omega⟩ v).1
    simp only [Nat.mul_zero, Nat.zero_add, Nat.mul_one] at e0 e1
    have hs : ((List.range 2).map (fun j => val false (lane 64 j (SumsOf8U v)))).sum =
        ((List.range 16).map (fun j => val false (lane 8 j v))).sum := by
      rw [← sum_split, ← e0, ← e1]; simp [List.range_succ]
    unfold IsRed IsSum at hw
    rw [show Lanes 64 16 = 2 from rfl] at hw
    simp only [] at hw
    rw [hs] at hw
    unfold IsSum
    rw [show Lanes 8 16 = 16 from rfl, ← trunc64, ← hw]
    have hb := byte_lane (w := 64) (m := 8) rfl (j := 0) (by decide) 0 (ReduceWithinBlocks t false RFunc.add 64 16 (SumsOf8U v))
    simp only [Nat.mul_zero, Nat.zero_add] at hb
    rw [← hb]; apply BitVec.eq_of_getLsbD_eq; intro i hi; simp [hi]
  rw [if_neg h16]
  exact within t signed .add h h2 v hi

/-- `MinOfLanes` puts the least lane into every lane. -/
theorem C71_minOfLanes (t : Tgt) (signed : Bool) {w sz : Nat} (h : Shape w sz) (v : M128) {i : Nat} (hi : i < Lanes w sz) :
    IsMin signed (lane w i (MinOfLanes t signed w sz v)) (Lanes w sz) (fun j => lane w j v) := by
  unfold MinOfLanes
  by_cases h1 : Lanes w sz = 1
  · rw [if_pos h1, h1]; exact one_isRed .min signed (by omega) v
  rw [if_neg h1]
  have h2 : 2 ≤ Lanes w sz := by rcases lanes_pow5 h with e | e | e | e | e <;> omega
  split
  · rename_i e; obtain ⟨_, rfl, rfl, rfl⟩ := e; exact min16 t v hi
  split
  · rename_i e; obtain ⟨_, rfl, rfl, rfl⟩ := e; exact min8 t v hi
  split
  · rename_i e; obtain ⟨_, rfl, rfl, rfl⟩ := e; exact min8x16 t v hi
  exact within t signed .min h h2 v hi

theorem toNat_allOnes_sub {w : Nat} (x : BitVec w) : (BitVec.allOnes w - x).toNat = 2 ^ w - 1 - x.toNat := by
  have := x.isLt
  rw [BitVec.toNat_sub_of_le (by rw [BitVec.le_def, BitVec.toNat_allOnes]; omega), BitVec.toNat_allOnes]

/-- `MaxOfLanes` puts the greatest lane into every lane. -/
theorem C71_maxOfLanes (t : Tgt) (signed : Bool) {w sz : Nat} (h : Shape w sz) (v : M128) {i : Nat} (hi : i < Lanes w sz) :
    IsMax signed (lane w i (MaxOfLanes t signed w sz v)) (Lanes w sz) (fun j => lane w j v) := by
  unfold MaxOfLanes
  by_cases h1 : Lanes w sz = 1
  · rw [if_pos h1, h1]; exact one_isRed .max signed (by omega) v
  rw [if_neg h1]
  have h2 : 2 ≤ Lanes w sz := by rcases lanes_pow5 h with e | e | e | e | e <;> omega
  split
  · rename_i e; obtain ⟨_, rfl, _⟩ := e
    simp only []
    obtain ⟨m1, k, hk, m2⟩ := C71_minOfLanes t false h (Sub w (set w (BitVec.allOnes w)) v) hi
    have hl : ∀ j, j < Lanes w sz → lane w j (Sub w (set w (BitVec.allOnes w)) v) = BitVec.allOnes w - lane w j v := fun j hj => by
      rw [lane_Sub (inReg_of h hj), lane_set (inReg_of h hj)]
    rw [lane_Sub (inReg_of h hi), lane_set (inReg_of h hi)]
    generalize lane w i (MinOfLanes t false w sz (Sub w (set w (BitVec.allOnes w)) v)) = A at *
    beta_reduce at m1 m2
    rw [hl k hk] at m2
    have hA : (BitVec.allOnes w - A) = lane w k v := by
      apply BitVec.eq_of_toNat_eq
      rw [toNat_allOnes_sub, m2, toNat_allOnes_sub]
      have := (lane w k v).isLt; omega
    rw [hA]
    refine ⟨fun j hj => ?_, k, hk, rfl⟩
    have := m1 j hj
    rw [hl j hj, m2] at this
    unfold val at this ⊢
    simp only [Bool.false_eq_true, if_false, Int.ofNat_le] at this ⊢
    rw [toNat_allOnes_sub, toNat_allOnes_sub] at this
    have := (lane w j v).isLt
    have := (lane w k v).isLt
    omega
  exact within t signed .max h h2 v hi

/-! ## `ReduceSum`, `ReduceMin`, `ReduceMax` -/

theorem reduce_promoted {f : RFunc} {s : Bool} (t : Tgt) (v : M128) {r : BitVec 16}
    (h : IsRed f s r 4 (fun j => lane 16 j (PromoteTo t s 8 16 v))) : IsRed f s (BitVec.setWidth 8 r) 4 (fun j => lane 8 j v) := by
  apply red_narrow
  exact red_congr h rfl (fun j hj => lane_promote t s (.inl ⟨rfl, .inl rfl⟩) v (by omega))

theorem lanes_pos' {w sz : Nat} (h : Shape w sz) : 0 < Lanes w sz := by rcases lanes_pow5 h with e | e | e | e | e <;> omega

/-- `ReduceSum` is the sum of all lanes, wrapped to the lane type. -/
theorem C71_reduceSum (t : Tgt) (signed : Bool) {w sz : Nat} (h : Shape w sz) (v : M128) :
    IsSum signed (ReduceSum t signed w sz v) (Lanes w sz) (fun j => lane w j v) := by
  unfold ReduceSum
  by_cases h1 : Lanes w sz = 1
  · rw [if_pos h1, h1]; exact one_isRed .add signed (by omega) v
  rw [if_neg h1]
  split
  · rename_i e; obtain ⟨rfl, rfl⟩ := e
    exact reduce_promoted (f := .add) t v (C71_sumOfLanes t signed (w := 16) (sz := 8) (by simp [Shape]) _ (i := 0) (by decide))
  exact C71_sumOfLanes t signed h v (lanes_pos' h)
/-- `ReduceMin` is the least lane. -/
theorem C71_reduceMin (t : Tgt) (signed : Bool) {w sz : Nat} (h : Shape w sz) (v : M128) :
    IsMin signed (ReduceMin t signed w sz v) (Lanes w sz) (fun j => lane w j v) := by
  unfold ReduceMin
  by_cases h1 : Lanes w sz = 1
  · rw [if_pos h1, h1]; exact one_isRed .min signed (by omega) v
  rw [if_neg h1]
  split
  · rename_i e; obtain ⟨rfl, rfl⟩ := e
    exact reduce_promoted (f := .min) t v (C71_minOfLanes t signed (w := 16) (sz := 8) (by simp [Shape]) _ (i := 0) (by decide))
  exact C71_minOfLanes t signed h v (lanes_pos' h)
/-- `ReduceMax` is the greatest lane. -/
theorem C71_reduceMax (t : Tgt) (signed : Bool) {w sz : Nat} (h : Shape w sz) (v : M128) :
    IsMax signed (ReduceMax t signed w sz v) (Lanes w sz) (fun j => lane w j v) := by
  unfold ReduceMax
  by_cases h1 : Lanes w sz = 1
  · rw [if_pos h1, h1]; exact one_isRed .max signed (by omega) v
  rw [if_neg h1]
  split
  · rename_i e; obtain ⟨rfl, rfl⟩ := e
    exact reduce_promoted (f := .max) t v (C71_maxOfLanes t signed (w := 16) (sz := 8) (by simp [Shape]) _ (i := 0) (by decide))
  exact C71_maxOfLanes t signed h v (lanes_pos' h)

/-! ## Masked reductions -/

/-- `MaskedReduceSum` is the sum of the lanes whose mask is set, wrapped to the lane type. -/
theorem C71_maskedReduceSum (t : Tgt) (signed : Bool) {w sz : Nat} (h : Shape w sz) (m v : M128) (p : Nat → Bool) (hm : MaskOf w sz m p) :
    MaskedReduceSum t signed w sz m v =
      BitVec.ofInt w (((List.range (Lanes w sz)).map (fun j => if p j then val signed (lane w j v) else 0)).sum) := by
  have := C71_reduceSum t signed h (IfThenElseZero m v)
  unfold MaskedReduceSum
  rw [this]; congr 2
  apply List.map_congr_left
  intro j hj
  have hj' := List.mem_range.1 hj
  have hl : lane w j (IfThenElseZero m v) = if p j then lane w j v else 0#w := by
    unfold IfThenElseZero
    rw [lane_And, hm j hj']
    split <;> simp
  beta_reduce; rw [hl]
  cases p j
  · simp only [Bool.false_eq_true, if_false]; unfold val; cases signed <;> simp
  · rfl

/-- `MaskedReduceMin` is the least of the lanes whose mask is set, and the greatest value of the type if none is. -/
theorem C71_maskedReduceMin (t : Tgt) (signed : Bool) {w sz : Nat} (h : Shape w sz) (m v : M128) (p : Nat → Bool) (hm : MaskOf w sz m p) :
    (∀ j, j < Lanes w sz → p j = true → val signed (MaskedReduceMin t signed w sz m v) ≤ val signed (lane w j v)) ∧
    ((∃ j, j < Lanes w sz ∧ p j = true) → ∃ j, j < Lanes w sz ∧ p j = true ∧ MaskedReduceMin t signed w sz m v = lane w j v) ∧
    ((∀ j, j < Lanes w sz → p j = false) → MaskedReduceMin t signed w sz m v = if signed then BitVec.intMax w else BitVec.allOnes w) := by
  obtain ⟨h1, k, hk, h2⟩ := C71_reduceMin t signed h (IfThenElse t m v (set w (if signed then BitVec.intMax w else BitVec.allOnes w)))
  have e : MaskedReduceMin t signed w sz m v =
    ReduceMin t signed w sz (IfThenElse t m v (set w (if signed then BitVec.intMax w else BitVec.allOnes w))) := rfl
  rw [← e] at h1 h2
  have hl : ∀ j, j < Lanes w sz → lane w j (IfThenElse t m v (set w (if signed then BitVec.intMax w else BitVec.allOnes w))) =
      if p j then lane w j v else if signed then BitVec.intMax w else BitVec.allOnes w := fun j hj => by
    rw [lane_IfThenElse t (inReg_of h hj) _ _ _ (p j) (hm j hj), lane_set (inReg_of h hj)]
  beta_reduce at h1 h2
  rw [hl k hk] at h2
  have hw : 0 < w := (inReg_of h hk).pos
  have htop : ∀ x : BitVec w, val signed x ≤ val signed (if signed then BitVec.intMax w else BitVec.allOnes w) := by
    intro x
    cases signed
    · have := x.isLt; unfold val; simp only [Bool.false_eq_true, if_false, BitVec.toNat_allOnes]; omega
    · have := BitVec.toInt_lt (x := x)
      unfold val; simp only [if_true, BitVec.toInt_intMax]
      have e2 : (2 : Int) ^ (w - 1) = ((2 ^ (w - 1) : Nat) : Int) := by push_cast; rfl
      omega
  refine ⟨fun j hj hp => ?_, fun ⟨j, hj, hp⟩ => ?_, fun hn => ?_⟩
  · have := h1 j hj; rw [hl j hj, if_pos hp] at this; exact this
  · by_cases hpk : p k = true
    · rw [if_pos hpk] at h2; exact ⟨k, hk, hpk, h2⟩
    · rw [if_neg hpk] at h2
      refine ⟨j, hj, hp, val_inj signed ?_⟩
      have a := h1 j hj; rw [hl j hj, if_pos hp] at a
      have b := htop (lane w j v); rw [← h2] at b
      omega
  · rw [h2, if_neg (by rw [hn k hk]; decide)]

/-- `MaskedReduceMax` is the greatest of the lanes whose mask is set, and the least value of the type if none is. -/
theorem C71_maskedReduceMax (t : Tgt) (signed : Bool) {w sz : Nat} (h : Shape w sz) (m v : M128) (p : Nat → Bool) (hm : MaskOf w sz m p) :
    (∀ j, j < Lanes w sz → p j = true → val signed (lane w j v) ≤ val signed (MaskedReduceMax t signed w sz m v)) ∧
    ((∃ j, j < Lanes w sz ∧ p j = true) → ∃ j, j < Lanes w sz ∧ p j = true ∧ MaskedReduceMax t signed w sz m v = lane w j v) ∧
    ((∀ j, j < Lanes w sz → p j = false) → MaskedReduceMax t signed w sz m v = if signed then BitVec.intMin w else 0#w) := by
  obtain ⟨h1, k, hk, h2⟩ := C71_reduceMax t signed h (IfThenElse t m v (set w (if signed then BitVec.intMin w else 0#w)))
  have e : MaskedReduceMax t signed w sz m v =
    ReduceMax t signed w sz (IfThenElse t m v (set w (if signed then BitVec.intMin w else 0#w))) := rfl
  rw [← e] at h1 h2
  have hl : ∀ j, j < Lanes w sz → lane w j (IfThenElse t m v (set w (if signed then BitVec.intMin w else 0#w))) =
      if p j then lane w j v else if signed then BitVec.intMin w else 0#w := fun j hj => by
    rw [lane_IfThenElse t (inReg_of h hj) _ _ _ (p j) (hm j hj), lane_set (inReg_of h hj)]
  beta_reduce at h1 h2
  rw [hl k hk] at h2
  have hw : 0 < w := (inReg_of h hk).pos
  have htop : ∀ x : BitVec w, val signed (if signed then BitVec.intMin w else 0#w) ≤ val signed x := by
    intro x
    cases signed
    · unfold val; simp only [Bool.false_eq_true, if_false, BitVec.toNat_ofNat, Nat.zero_mod]; omega
    · have := BitVec.le_toInt (x := x)
      unfold val; simp only [if_true, BitVec.toInt_intMin_of_pos hw]
      exact this
  refine ⟨fun j hj hp => ?_, fun ⟨j, hj, hp⟩ => ?_, fun hn => ?_⟩
  · have := h1 j hj; rw [hl j hj, if_pos hp] at this; exact this
  · by_cases hpk : p k = true
    · rw [if_pos hpk] at h2; exact ⟨k, hk, hpk, h2⟩
    · rw [if_neg hpk] at h2
      refine ⟨j, hj, hp, val_inj signed ?_⟩
      have a := h1 j hj; rw [hl j hj, if_pos hp] at a
      have b := htop (lane w j v); rw [← h2] at b
      omega
  · rw [h2, if_neg (by rw [hn k hk]; decide)]

/-! ## The byte reversals -/

/-- 8-bit `Reverse2`: every pair of bytes is exchanged. -/
theorem C71_reverse2 (t : Tgt) {sz : Nat} (h : Shape 8 sz) (h2 : 2 ≤ sz) (v : M128) {i : Nat} (hi : i < sz) :
    lane 8 i (Reverse2x8 t v) = lane 8 (i / 2 * 2 + (1 - i % 2)) v := by
  have := lane_Rev2 t h (by show 2 ≤ sz / 1; omega) v (i := i) (by show i < sz / 1; omega)
  unfold Rev2 at this; rwa [if_pos rfl] at this
/-- 8-bit `Reverse4`: every group of four bytes is reversed. -/
theorem C71_reverse4 (t : Tgt) {sz : Nat} (h : Shape 8 sz) (h2 : 4 ≤ sz) (v : M128) {i : Nat} (hi : i < sz) :
    lane 8 i (Reverse4x8 t sz v) = lane 8 (i / 4 * 4 + (3 - i % 4)) v := by
  have := lane_Rev4 t h (by show 4 ≤ sz / 1; omega) v (i := i) (by show i < sz / 1; omega)
  unfold Rev4 at this; rwa [if_pos rfl] at this

end Hwy.X86
