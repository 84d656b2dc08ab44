import Verif.X86Conv
import Verif.X86MulSpec2

/-!
# C65: promotions of the x86 128-bit targets

A promoted lane has the value of the source lane, on every target and for every pair of lane types.
-/

namespace Hwy.X86

/-- The pairs of lane widths `PromoteTo` accepts. -/
def Widens (f g : Nat) : Prop :=
  (f = 8 ∧ (g = 16 ∨ g = 32 ∨ g = 64)) ∨ (f = 16 ∧ (g = 32 ∨ g = 64)) ∨ (f = 32 ∧ g = 64)

/-- Evaluates the compile-time conditions. -/
macro "statc" : tactic => `(tactic| simp only [InterleaveLower, LowerHalf, ge_iff_le, gt_iff_lt, Nat.reduceMul, Nat.reduceDiv,
  Nat.reduceEqDiff, Nat.reduceLeDiff, Nat.reduceLT, Tgt.val, HWY_AVX2, HWY_SSE4, HWY_SSSE3, HWY_SSE2, Nat.reducePow, reduceIte,
  and_true, and_false, true_and, false_and, ne_eq, not_true_eq_false, not_false_eq_true, Bool.false_eq_true, reduceCtorEq])

/-- `PSHUFB` with constant indices, some of which clear the byte. -/
def SB.look0 (S : Nat → SB) : SB → SB
  | .lit n => if n < 16 then S n else if 128 ≤ n ∧ n < 256 then .lit 0 else .bad
  | _ => .bad

theorem sym_shuffle8z {a b A B : M128} {S T : Nat → SB} (hA : Sym a b A S) (hB : Sym a b B T) :
    Sym a b (shuffle8 A B) (fun i => SB.look0 S (T i)) := by
  intro i hi x hx
  by_cases h : ∃ n, T i = .lit n ∧ 128 ≤ n ∧ n < 256
  · obtain ⟨n, hT, h1, h2⟩ := h
    simp only [hT, SB.look0, if_neg (show ¬ n < 16 by omega), if_pos (And.intro h1 h2)] at hx
    have hb : lane 8 i B = BitVec.ofNat 8 n := hB i hi _ (by rw [hT]; rfl)
    have hbn : (lane 8 i B).toNat = n := by rw [hb]; simp; omega
    have hm : (lane 8 i B).msb = true := by rw [BitVec.msb_eq_decide, hbn]; simp; omega
    unfold shuffle8
    rw [lane_mk (by omega) (by omega), hm, if_pos rfl]
    exact (den_lit.1 hx)
  · refine sym_shuffle8 hA hB i hi x ?_
    cases hT : T i with
    | lit n =>
      simp only [hT, SB.look0, SB.look] at hx ⊢
      split at hx
      · rename_i hn; rw [if_pos hn]; exact hx
      · rename_i hn
        rw [if_neg (fun h' => h ⟨n, hT, h'⟩)] at hx; rw [if_neg hn]; exact hx
    | _ => simp [hT, SB.look0, SB.den] at hx

/-- A wide lane whose lowest part is `x` and whose other parts are zero is `x` zero-extended. -/
theorem zext_lane {f m i : Nat} {R : M128} {x : BitVec f} (hf : 0 < f)
    (h : ∀ j, j < m → lane f (m * i + j) R = if j = 0 then x else 0#f) :
    lane (f * m) i R = x.setWidth (f * m) := by
  apply BitVec.eq_of_getLsbD_eq; intro k hk
  have hd := Nat.div_add_mod k f
  have hr := Nat.mod_lt k hf
  have hj : k / f < m := (Nat.div_lt_iff_lt_mul hf).2 (by rw [Nat.mul_comm]; exact hk)
  have e := congrArg (fun z => z.getLsbD (k % f)) (h (k / f) hj)
  simp only [lane_sub f m i (k / f) hj, BitVec.getLsbD_extractLsb', hr, decide_true, Bool.true_and, hd] at e
  rw [e, BitVec.getLsbD_setWidth]
  by_cases h0 : k / f = 0
  · have : k % f = k := by rw [h0, Nat.mul_zero, Nat.zero_add] at hd; exact hd
    rw [if_pos h0, this]; simp [hk]
  · rw [if_neg h0, BitVec.getLsbD_of_ge x k]
    · simp
    · have := Nat.le_mul_of_pos_right f (Nat.pos_of_ne_zero h0); omega

/-- An arithmetic right shift sign-extends the uppermost bits. -/
theorem sar_top {g : Nat} (f : Nat) (hf : 0 < f) (hg : f ≤ g) (x : BitVec g) :
    x.sshiftRight (g - f) = (x.extractLsb' (g - f) f).signExtend g := by
  apply BitVec.eq_of_getLsbD_eq; intro k hk
  rw [BitVec.getLsbD_signExtend, BitVec.getLsbD_sshiftRight, BitVec.getLsbD_extractLsb',
    BitVec.msb_eq_getLsbD_last, BitVec.msb_eq_getLsbD_last, BitVec.getLsbD_extractLsb']
  have h1 : g - f + (f - 1) = g - 1 := by omega
  by_cases h8 : k < f
  · simp [hk, h8, show g - f + k < g by omega, show ¬ g ≤ k by omega]
  · simp [hk, h8, show ¬ g - f + k < g by omega, show ¬ g ≤ k by omega, h1, show f - 1 < f by omega]

/-- The bytes of the result of the unsigned promotions that are not a single instruction. -/
theorem promoteU_parts (t : Tgt) {f m : Nat} (hp : Widens f (f * m)) (ht : t.val ≥ HWY_SSSE3) (v : M128) {k : Nat}
    (hk : k < 128 / f) :
    lane f k (PromoteToU t f (f * m) v) = if k % m = 0 then lane f (k / m) v else 0#f := by
  have hm : (f = 8 ∧ (m = 2 ∨ m = 4 ∨ m = 8)) ∨ (f = 16 ∧ (m = 2 ∨ m = 4)) ∨ (f = 32 ∧ m = 2) := by
    unfold Widens at hp; rcases hp with ⟨rfl, h⟩ | ⟨rfl, h⟩ | ⟨rfl, h⟩ <;> omega
  clear hp
  rcases hm with ⟨rfl, (rfl | rfl | rfl)⟩ | ⟨rfl, (rfl | rfl)⟩ | ⟨rfl, rfl⟩ <;> cases t <;>
    first
    | (exfalso; revert ht; decide)
    | (unfold PromoteToU TableLookupBytesOr0 TableLookupBytes; statc; leaf0 hk)
    | (unfold PromoteToU TableLookupBytesOr0 TableLookupBytes; statc; apply Sym.lanes0W (b := 0#128) (hi := hk)
       · decide
       · decide
       · exact sym_shuffle8z sym_a (sym_ofBytes _)
       · decide +kernel)

theorem lane_cvtepu {f g i : Nat} (h : InReg g i) (v : M128) : lane g i (cvtepu f g v) = (lane f i v).setWidth g :=
  lane_mk h.pos h.le _
theorem lane_cvtepi {f g i : Nat} (h : InReg g i) (v : M128) : lane g i (cvtepi f g v) = (lane f i v).signExtend g :=
  lane_mk h.pos h.le _

theorem lane_promoteU (t : Tgt) {f g : Nat} (hp : Widens f g) (v : M128) {i : Nat} (h : i < 128 / g) :
    lane g i (PromoteToU t f g v) = (lane f i v).setWidth g := by
  by_cases ht : t.val ≥ HWY_SSSE3
  · obtain ⟨m, hm, hm0, hf⟩ : ∃ m, g = f * m ∧ 0 < m ∧ 0 < f := by
      unfold Widens at hp
      rcases hp with ⟨rfl, (rfl | rfl | rfl)⟩ | ⟨rfl, (rfl | rfl)⟩ | ⟨rfl, rfl⟩
      exacts [⟨2, by omega⟩, ⟨4, by omega⟩, ⟨8, by omega⟩, ⟨2, by omega⟩, ⟨4, by omega⟩, ⟨2, by omega⟩]
    subst hm
    apply zext_lane hf
    intro j hj
    have hk : m * i + j < 128 / f := by
      rw [← Nat.div_div_eq_div_mul] at h
      have := (Nat.lt_div_iff_mul_lt hm0).1 h
      have h2 := Nat.div_mul_le_self (128 / f) m
      have h3 : i + 1 ≤ 128 / f / m := by omega
      have h4 := Nat.mul_le_mul_right m h3
      have h5 : (i + 1) * m = m * i + m := by rw [Nat.add_mul, Nat.mul_comm i m]; omega
      omega
    rw [promoteU_parts t hp ht v hk, Nat.mul_add_mod, Nat.mod_eq_of_lt hj]
    by_cases h0 : j = 0
    · rw [if_pos h0, if_pos h0, h0, Nat.add_zero, Nat.mul_div_cancel_left _ hm0]
    · rw [if_neg h0, if_neg h0]
  · have hr : InReg g i := by
      unfold Widens at hp
      rcases hp with ⟨rfl, (rfl | rfl | rfl)⟩ | ⟨rfl, (rfl | rfl)⟩ | ⟨rfl, rfl⟩ <;> exact ⟨by omega, by omega⟩
    unfold PromoteToU; rw [if_neg ht]
    exact lane_cvtepu hr v

/-- One doubling of a signed lane. -/
theorem lane_promoteI2 (t : Tgt) {f : Nat} (hf : f = 8 ∨ f = 16 ∨ f = 32) (v : M128) {i : Nat} (h : i < 128 / (f * 2)) :
    lane (f * 2) i (ShiftRightI t (f * 2) f (unpacklo f v v)) = (lane f i v).signExtend (f * 2) := by
  have hr : InReg (f * 2) i := by rcases hf with rfl | rfl | rfl <;> exact ⟨by omega, by omega⟩
  rw [C62_shiftRight_signed t hr _ f (by rcases hf with rfl | rfl | rfl <;> omega)]
  have e := sar_top (g := f * 2) f (by omega) (by omega) (lane (f * 2) i (unpacklo f v v))
  rw [show f * 2 - f = f by omega] at e
  rw [e]; congr 1
  have e2 := lane_sub f 2 i 1 (by omega) (unpacklo f v v)
  rw [Nat.mul_one] at e2
  rw [← e2]
  unfold unpacklo
  have := hr.le
  rw [lane_mk (by omega) (by rw [Nat.mul_add, ← Nat.mul_assoc]; omega), if_neg (by omega), show (2 * i + 1) / 2 = i by omega]

/-- Two doublings of signed bytes. -/
theorem lane_promoteI4 (t : Tgt) (v : M128) {i : Nat} (h : i < 4) :
    lane 32 i (ShiftRightI t 32 24 (unpacklo 16 (unpacklo 8 v v) (unpacklo 8 v v))) = (lane 8 i v).signExtend 32 := by
  have hr : InReg 32 i := ⟨by omega, by omega⟩
  rw [C62_shiftRight_signed t hr _ 24 (by omega)]
  rw [sar_top (g := 32) 8 (by omega) (by omega)]; congr 1
  rw [← show lane 8 (4 * i + 3) _ = _ from lane_sub 8 4 i 3 (by omega) (unpacklo 16 (unpacklo 8 v v) (unpacklo 8 v v))]
  have := parts4 v (k := 4 * i + 3) (by omega)
  rw [this, show (4 * i + 3) / 4 = i by omega]
where
  parts4 (v : M128) {k : Nat} (hk : k < 16) :
      lane 8 k (unpacklo 16 (unpacklo 8 v v) (unpacklo 8 v v)) = lane 8 (k / 4) v := by
    leaf1 hk

theorem lane_shufflelo_hi (x : M128) {i : Nat} (h : i < 4) :
    lane 16 i (shufflelo16 x (MM_SHUFFLE 3 3 1 1)) = lane 16 (i / 2 * 2 + 1) x := by
  leaf1 h

/-- Spreading the sign of sign-extended 32-bit lanes. -/
theorem lane_promoteI64 {f : Nat} (hf : f = 8 ∨ f = 16) (v x4 : M128) {i : Nat} (h : i < 2)
    (hx : lane 32 i x4 = (lane f i v).signExtend 32) :
    lane 64 i (unpacklo 32 x4 (shufflelo16 x4 (MM_SHUFFLE 3 3 1 1))) = (lane f i v).signExtend 64 := by
  have hs : lane (16 * 2) i (shufflelo16 x4 (MM_SHUFFLE 3 3 1 1)) = ((lane f i v).signExtend 64).extractLsb' 32 32 := by
    have e1 : lane 16 (2 * i + 1) x4 = (lane 32 i x4).extractLsb' 16 16 := lane_sub 16 2 i 1 (by omega) x4
    apply lane2_ext
    · rw [lane_shufflelo_hi _ (by omega), show 2 * i / 2 * 2 + 1 = 2 * i + 1 by omega, e1, hx]
      apply BitVec.eq_of_getLsbD_eq; intro k hk
      simp only [BitVec.getLsbD_extractLsb', BitVec.getLsbD_signExtend, hk, decide_true, Bool.true_and, Nat.zero_add,
        show 16 + k < 32 by omega, show 32 + k < 64 by omega, show k < 32 by omega]
      rcases hf with rfl | rfl <;> simp [show ¬ 16 + k < 8 by omega, show ¬ 32 + k < 8 by omega, show ¬ 32 + k < 16 by omega]
    · rw [lane_shufflelo_hi _ (by omega), show (2 * i + 1) / 2 * 2 + 1 = 2 * i + 1 by omega, e1, hx]
      apply BitVec.eq_of_getLsbD_eq; intro k hk
      simp only [BitVec.getLsbD_extractLsb', BitVec.getLsbD_signExtend, hk, decide_true, Bool.true_and,
        show 16 + k < 32 by omega, show 32 + (16 + k) < 64 by omega]
      rcases hf with rfl | rfl <;>
        simp [show ¬ 16 + k < 8 by omega, show ¬ 32 + (16 + k) < 8 by omega, show ¬ 32 + (16 + k) < 16 by omega]
  refine lane2_ext (w := 32) (x := (lane f i v).signExtend 64) ?_ ?_
  · unfold unpacklo
    rw [lane_mk (by omega) (by omega), if_pos (by omega), show 2 * i / 2 = i by omega, hx]
    apply BitVec.eq_of_getLsbD_eq; intro k hk
    simp only [BitVec.getLsbD_extractLsb', BitVec.getLsbD_signExtend, hk, decide_true, Bool.true_and, Nat.zero_add,
      show k < 64 by omega]
  · unfold unpacklo
    rw [lane_mk (by omega) (by omega), if_neg (by omega), show (2 * i + 1) / 2 = i by omega]
    exact hs

theorem lane_promoteI (t : Tgt) {f g : Nat} (hp : Widens f g) (v : M128) {i : Nat} (h : i < 128 / g) :
    lane g i (PromoteToI t f g v) = (lane f i v).signExtend g := by
  unfold PromoteToI
  by_cases ht : t.val ≥ HWY_SSSE3
  · rw [if_pos ht]; unfold InterleaveLower
    rcases hp with ⟨rfl, (rfl | rfl | rfl)⟩ | ⟨rfl, (rfl | rfl)⟩ | ⟨rfl, rfl⟩ <;>
      simp only [Nat.reduceMul, Nat.reduceEqDiff, reduceIte, and_true, and_false]
    · exact lane_promoteI2 t (Or.inl rfl) v h
    · exact lane_promoteI4 t v h
    · exact lane_promoteI64 (Or.inl rfl) v _ h (lane_promoteI4 t v (by omega))
    · exact lane_promoteI2 t (Or.inr (Or.inl rfl)) v h
    · exact lane_promoteI64 (Or.inr rfl) v _ h (lane_promoteI2 t (Or.inr (Or.inl rfl)) v (by omega))
    · exact lane_promoteI2 t (Or.inr (Or.inr rfl)) v h
  · have hr : InReg g i := by
      unfold Widens at hp
      rcases hp with ⟨rfl, (rfl | rfl | rfl)⟩ | ⟨rfl, (rfl | rfl)⟩ | ⟨rfl, rfl⟩ <;> exact ⟨by omega, by omega⟩
    rw [if_neg ht]
    exact lane_cvtepi hr v

theorem lane_promote (t : Tgt) (s : Bool) {f g : Nat} (hp : Widens f g) (v : M128) {i : Nat} (h : i < 128 / g) :
    lane g i (PromoteTo t s f g v) = BitVec.ofInt g (val s (lane f i v)) := by
  rw [ofInt_val_ext]; unfold PromoteTo
  cases s
  · exact lane_promoteU t hp v h
  · exact lane_promoteI t hp v h

/-- A wider type represents every value of a narrower one. -/
theorem val_ofInt_val (s s' : Bool) {f g : Nat} (hp : Widens f g) (hs : s = true → s' = true) (x : BitVec f) :
    val s' (BitVec.ofInt g (val s x)) = val s x := by
  have hx := x.isLt
  have h1 := BitVec.toInt_lt (x := x)
  have h2 := BitVec.le_toInt (x := x)
  unfold val
  rcases hp with ⟨rfl, (rfl | rfl | rfl)⟩ | ⟨rfl, (rfl | rfl)⟩ | ⟨rfl, rfl⟩ <;>
  · cases s <;> cases s' <;> simp only [Bool.false_eq_true, if_false, if_true] <;>
    first
    | (rw [BitVec.toNat_ofInt]; omega)
    | (rw [BitVec.toInt_ofInt, Int.bmod_def]; omega)
    | exact absurd (hs rfl) (by decide)

/-- `PromoteTo`: every lane keeps its value, as a lane of the wider type (signed if the source is signed;
unsigned sources also promote to signed types). -/
theorem C65_promoteTo (t : Tgt) (signedFrom signedTo : Bool) (hs : signedFrom = true → signedTo = true) {f g : Nat}
    (hp : Widens f g) (v : M128) {i : Nat} (h : i < 128 / g) :
    val signedTo (lane g i (PromoteTo t signedFrom f g v)) = val signedFrom (lane f i v) := by
  rw [lane_promote t signedFrom hp v h, val_ofInt_val signedFrom signedTo hp hs]

theorem widens2 {f : Nat} (hf : NarrowW f) : Widens f (2 * f) := by
  unfold NarrowW Widens at *; omega

/-- `PromoteLowerTo` converts the lanes of the lower half. -/
theorem C65_promoteLowerTo (t : Tgt) (signedFrom signedTo : Bool) (hs : signedFrom = true → signedTo = true) {f : Nat}
    (hf : NarrowW f) (v : M128) {i : Nat} (h : i < 128 / (2 * f)) :
    val signedTo (lane (2 * f) i (PromoteLowerTo t signedFrom f v)) = val signedFrom (lane f i v) :=
  C65_promoteTo t _ _ hs (widens2 hf) v h

/-- `PromoteUpperTo` converts the lanes of the upper half of a vector of `sz` bytes. -/
theorem C65_promoteUpperTo (t : Tgt) (signedFrom signedTo : Bool) (hs : signedFrom = true → signedTo = true) {f sz : Nat}
    (hf : NarrowW f) (hz : Shape f (sz / 2)) (h2 : sz / 2 ≤ 8) (v : M128) {i : Nat} (h : i < Lanes f (sz / 2)) :
    val signedTo (lane (2 * f) i (PromoteUpperTo t signedFrom f sz v)) = val signedFrom (lane f (Lanes f (sz / 2) + i) v) := by
  have h' : i < 128 / (2 * f) := by
    unfold Lanes at h
    unfold NarrowW at hf; unfold Shape at hz
    rcases hf with rfl | rfl | rfl <;> omega
  rw [PromoteUpperTo, C65_promoteTo t _ _ hs (widens2 hf) _ h', C63_upperHalf t hz h2 v h]

end Hwy.X86
