import Verif.X86ConvSpec3

/-!
# C65: two-vector demotions, promotions of even and odd lanes, 8-bit products
-/

namespace Hwy.X86

/-- Lane `i` of the concatenation of two half-size vectors of `L / 2` lanes each. -/
def catLane (w L : Nat) (a b : M128) (i : Nat) : BitVec w := if i < L / 2 then lane w i a else lane w (i - L / 2) b

theorem combine_cat {n sz : Nat} (hn : NarrowW n) (hs : Shape n sz) (h2 : 2 ≤ Lanes n sz) (h8 : sz ≤ 8) (a b : M128) {i : Nat}
    (h : i < Lanes n sz) : lane (2 * n) i (Combine (2 * sz) b a) = catLane (2 * n) (Lanes n sz) a b i := by
  have hL : Lanes (2 * n) (2 * sz) = Lanes n sz := by
    unfold Lanes; unfold NarrowW at hn
    rcases hn with rfl | rfl | rfl <;> simp only [Nat.reduceMul, Nat.reduceDiv] <;> omega
  have hS : Shape (2 * n) (2 * sz) := by
    unfold Shape at *; unfold NarrowW at hn
    rcases hn with rfl | rfl | rfl <;> omega
  have := C63_combine hS (by omega) b a (i := i) (by omega)
  rw [this, hL]; rfl

/-- A one-vector demotion applied to the combined vector. -/
theorem demote_combine {n sz : Nat} (hn : NarrowW n) (hs : Shape n sz) (h2 : 2 ≤ Lanes n sz) (h8 : sz ≤ 8) (sf st : Bool)
    {D : M128 → M128} (hD : ∀ v i, i < 128 / (2 * n) → lane n i (D v) = satLane st n (val sf (lane (2 * n) i v)))
    (a b : M128) {i : Nat} (h : i < Lanes n sz) :
    lane n i (D (Combine (2 * sz) b a)) = satLane st n (val sf (catLane (2 * n) (Lanes n sz) a b i)) := by
  rw [hD _ i, combine_cat hn hs h2 h8 a b h]
  unfold Lanes at h; unfold NarrowW at hn
  rcases hn with rfl | rfl | rfl <;> omega

/-- A full pack of two registers. -/
def IsPack (st : Bool) (n : Nat) (P a b : M128) : Prop :=
  ∀ i, i < 128 / (2 * n) → lane n i P = satLane st n (val true (lane (2 * n) i a)) ∧
    lane n (128 / (2 * n) + i) P = satLane st n (val true (lane (2 * n) i b))

theorem packs_isPack {n : Nat} (hn : n = 8 ∨ n = 16) (a b : M128) : IsPack true n (packs (2 * n) a b) a b := by
  intro i h
  rcases hn with rfl | rfl
  · exact ⟨lane_packs_lo (Or.inl rfl) a b h, lane_packs_hi (Or.inl rfl) a b h⟩
  · exact ⟨lane_packs_lo (Or.inr rfl) a b h, lane_packs_hi (Or.inr rfl) a b h⟩
theorem packus_isPack {n : Nat} (hn : n = 8 ∨ n = 16) (a b : M128) : IsPack false n (packus (2 * n) a b) a b := by
  intro i h
  rcases hn with rfl | rfl
  · exact ⟨lane_packus_lo (Or.inl rfl) a b h, lane_packus_hi (Or.inl rfl) a b h⟩
  · exact ⟨lane_packus_lo (Or.inr rfl) a b h, lane_packus_hi (Or.inr rfl) a b h⟩

theorem pack_full {st : Bool} {n : Nat} (hn : n = 8 ∨ n = 16) {P a b : M128} (hP : IsPack st n P a b) {i : Nat} (h : i < Lanes n 16) :
    lane n i P = satLane st n (val true (catLane (2 * n) (Lanes n 16) a b i)) := by
  unfold catLane
  unfold Lanes at *
  split
  · rename_i h'
    exact (hP i (by rcases hn with rfl | rfl <;> omega)).1
  · rename_i h'
    have := (hP (i - 16 / (n / 8) / 2) (by rcases hn with rfl | rfl <;> omega)).2
    rw [← this]; congr 1
    rcases hn with rfl | rfl <;> omega

theorem shuf_half {n : Nat} (hn : n = 8 ∨ n = 16) (P : M128) {i : Nat} (h : i < Lanes n 8) :
    lane n i (shuffle32 P (MM_SHUFFLE 2 0 2 0)) = lane n (if i < Lanes n 8 / 2 then i else i + Lanes n 8 / 2) P := by
  rcases hn with rfl | rfl <;> leaf1 h

theorem pack_half {st : Bool} {n : Nat} (hn : n = 8 ∨ n = 16) {P a b : M128} (hP : IsPack st n P a b) {i : Nat} (h : i < Lanes n 8) :
    lane n i (shuffle32 P (MM_SHUFFLE 2 0 2 0)) = satLane st n (val true (catLane (2 * n) (Lanes n 8) a b i)) := by
  rw [shuf_half hn P h]
  unfold catLane
  unfold Lanes at *
  split
  · rename_i h'
    exact (hP i (by rcases hn with rfl | rfl <;> omega)).1
  · rename_i h'
    have := (hP (i - 8 / (n / 8) / 2) (by rcases hn with rfl | rfl <;> omega)).2
    rw [← this]; congr 1
    rcases hn with rfl | rfl <;> omega

theorem narrow8 : NarrowW 8 := Or.inl rfl
theorem narrow16 : NarrowW 16 := Or.inr (Or.inl rfl)
theorem narrow32 : NarrowW 32 := Or.inr (Or.inr rfl)

/-- Two demoted halves combined. -/
theorem combine_demoted {D : M128 → M128} {st sf : Bool} (hD : ∀ v i, i < 4 → lane 16 i (D v) = satLane st 16 (val sf (lane 32 i v)))
    (a b : M128) {i : Nat} (h : i < Lanes 16 16) :
    lane 16 i (Combine 16 (D b) (D a)) = satLane st 16 (val sf (catLane 32 (Lanes 16 16) a b i)) := by
  rw [C63_combine (w := 16) (sz := 16) (by unfold Shape; omega) (by decide) (D b) (D a) h]
  unfold catLane
  have hL : Lanes 16 16 = 8 := rfl
  rw [hL] at h ⊢
  split
  · rw [hD a i (by omega)]
  · rw [hD b _ (by omega)]

theorem reorderI (t : Tgt) (st : Bool) {n sz : Nat} (hn : n = 8 ∨ n = 16) (hs : Shape n sz) (h2 : 2 ≤ Lanes n sz) (a b : M128)
    {i : Nat} (h : i < Lanes n sz) :
    lane n i (ReorderDemote2FromI t st n sz a b) = satLane st n (val true (catLane (2 * n) (Lanes n sz) a b i)) := by
  unfold ReorderDemote2FromI
  rcases hn with rfl | rfl
  · simp only [Nat.reduceEqDiff, reduceIte]
    have hsz : sz ≤ 4 ∨ sz = 8 ∨ sz = 16 := by unfold Shape at hs; omega
    cases st <;> simp only [if_true, if_false, Bool.false_eq_true]
    · rcases hsz with h4 | rfl | rfl
      · rw [if_pos h4]
        exact demote_combine narrow8 hs h2 (by omega) true false (D := DemoteI16U8) (fun v i => demoteI16U8 v) a b h
      · simp only [Nat.reduceLeDiff, reduceIte]
        exact pack_half (Or.inl rfl) (packus_isPack (Or.inl rfl) a b) h
      · simp only [Nat.reduceLeDiff, Nat.reduceEqDiff, reduceIte]
        exact pack_full (Or.inl rfl) (packus_isPack (Or.inl rfl) a b) h
    · rcases hsz with h4 | rfl | rfl
      · rw [if_pos h4]
        exact demote_combine narrow8 hs h2 (by omega) true true (D := DemoteI16I8) (fun v i => demoteI16I8 v) a b h
      · simp only [Nat.reduceLeDiff, reduceIte]
        exact pack_half (Or.inl rfl) (packs_isPack (Or.inl rfl) a b) h
      · simp only [Nat.reduceLeDiff, Nat.reduceEqDiff, reduceIte]
        exact pack_full (Or.inl rfl) (packs_isPack (Or.inl rfl) a b) h
  · have hsz : sz = 4 ∨ sz = 8 ∨ sz = 16 := by unfold Shape at hs; unfold Lanes at h2; omega
    cases st <;> simp only [if_true, if_false, Bool.false_eq_true]
    · rcases hsz with rfl | rfl | rfl <;> simp only [Nat.reduceEqDiff, reduceIte]
      · exact demote_combine (sz := 4) narrow16 hs h2 (by omega) true false (D := DemoteI32U16 t) (fun v i => demoteI32U16 t v) a b h
      · split
        · exact demote_combine (sz := 8) narrow16 hs h2 (by omega) true false (D := DemoteI32U16 t) (fun v i => demoteI32U16 t v) a b h
        · exact pack_half (Or.inr rfl) (packus_isPack (Or.inr rfl) a b) h
      · split
        · exact combine_demoted (D := DemoteI32U16 t) (sf := true) (fun v i => demoteI32U16 t v) a b h
        · exact pack_full (Or.inr rfl) (packus_isPack (Or.inr rfl) a b) h
    · rcases hsz with rfl | rfl | rfl <;> simp only [Nat.reduceEqDiff, reduceIte]
      · exact demote_combine (sz := 4) narrow16 hs h2 (by omega) true true (D := DemoteI32I16) (fun v i => demoteI32I16 v) a b h
      · exact pack_half (Or.inr rfl) (packs_isPack (Or.inr rfl) a b) h
      · exact pack_full (Or.inr rfl) (packs_isPack (Or.inr rfl) a b) h

theorem catLane_cases {w L : Nat} {a b : M128} {i : Nat} {p : BitVec w → Prop}
    (ha : i < L / 2 → p (lane w i a)) (hb : ¬ i < L / 2 → p (lane w (i - L / 2) b)) : p (catLane w L a b i) := by
  unfold catLane; split
  · rename_i h; exact ha h
  · rename_i h; exact hb h

theorem reorderU (t : Tgt) (st : Bool) {n sz : Nat} (hn : n = 8 ∨ n = 16) (hs : Shape n sz) (h2 : 2 ≤ Lanes n sz) (a b : M128)
    {i : Nat} (h : i < Lanes n sz) :
    lane n i (ReorderDemote2FromU t st n sz a b) = satLane st n (val false (catLane (2 * n) (Lanes n sz) a b i)) := by
  unfold ReorderDemote2FromU
  cases st <;> simp only [if_true, if_false, Bool.false_eq_true]
  · rcases hn with rfl | rfl <;> simp only [Nat.reduceEqDiff, reduceIte]
    · split
      · rename_i e; subst e
        rw [reorderI t false (Or.inl rfl) hs h2 _ _ h]
        apply satLane_congr
        have e : val true (catLane (2 * 8) (Lanes 8 16) (ClampU16 t a) (ClampU16 t b) i) = val false (catLane (2 * 8) (Lanes 8 16) a b i) ∨
            (256 ≤ val true (catLane (2 * 8) (Lanes 8 16) (ClampU16 t a) (ClampU16 t b) i) ∧
             256 ≤ val false (catLane (2 * 8) (Lanes 8 16) a b i)) := by
          unfold catLane
          have hL : Lanes 8 16 = 16 := rfl
          rw [hL] at h ⊢
          split
          · exact clampU16 t a (by omega)
          · exact clampU16 t b (by omega)
        simp only [lo, hi, if_false, Bool.false_eq_true]; omega
      · rename_i e
        have : sz ≤ 8 := by unfold Shape at hs; omega
        exact demote_combine narrow8 hs h2 this false false (D := DemoteU16U8 t) (fun v i => demoteU16U8 t v) a b h
    · split
      · rename_i e; subst e
        rw [reorderI t false (Or.inr rfl) hs h2 _ _ h]
        apply satLane_congr
        have e : val true (catLane (2 * 16) (Lanes 16 16) (ClampU32 t a) (ClampU32 t b) i) = val false (catLane (2 * 16) (Lanes 16 16) a b i) ∨
            (65536 ≤ val true (catLane (2 * 16) (Lanes 16 16) (ClampU32 t a) (ClampU32 t b) i) ∧
             65536 ≤ val false (catLane (2 * 16) (Lanes 16 16) a b i)) := by
          unfold catLane
          have hL : Lanes 16 16 = 8 := rfl
          rw [hL] at h ⊢
          split
          · exact clampU32 t a (by omega)
          · exact clampU32 t b (by omega)
        simp only [lo, hi, if_false, Bool.false_eq_true]; omega
      · rename_i e
        have : sz ≤ 8 := by unfold Shape at hs; omega
        exact demote_combine narrow16 hs h2 this false false (D := DemoteU32U16 t) (fun v i => demoteU32U16 t v) a b h
  · have hp : Narrows (2 * n) n := by unfold Narrows Widens; omega
    have hr : InReg n i := by
      unfold Shape at hs; unfold Lanes at h
      rcases hn with rfl | rfl <;> exact ⟨by omega, by omega⟩
    exact min_intMax t hp (by omega) _ _ hr (reorderI t true hn hs h2 a b h)

theorem sat64_pair (t : Tgt) (st : Bool) {A B : M128} {a b : M128} {sf : Bool}
    (hA : ∀ i, i < 2 → (lane 64 i A).toNat % 2 ^ 32 = (satLane st 32 (val sf (lane 64 i a))).toNat)
    (hB : ∀ i, i < 2 → (lane 64 i B).toNat % 2 ^ 32 = (satLane st 32 (val sf (lane 64 i b))).toNat)
    {i : Nat} (h : i < 4) : lane 32 i (ConcatEven t 32 16 B A) = satLane st 32 (val sf (catLane 64 4 a b i)) := by
  rw [C63_concatEven t (w := 32) (sz := 16) (by unfold Shape; omega) (by decide) B A h]
  have hL : Lanes 32 16 / 2 = 2 := rfl
  have low : ∀ j (r : M128), (lane 32 (2 * j) r).toNat = (lane 64 j r).toNat % 2 ^ 32 :=
    fun j r => low_part (f := 64) (n := 32) (by decide) (by decide) r
  unfold catLane
  rw [hL]
  apply BitVec.eq_of_toNat_eq
  split
  · rw [low, hA _ (by omega)]
  · rw [low, hB _ (by omega)]

theorem reorder64 (t : Tgt) (sf st : Bool) {sz : Nat} (hs : sz = 8 ∨ sz = 16) (a b : M128)
    {i : Nat} (h : i < Lanes 32 sz) :
    lane 32 i (ReorderDemote2From64 t sf st sz a b) = satLane st 32 (val sf (catLane 64 (Lanes 32 sz) a b i)) := by
  unfold ReorderDemote2From64
  rcases hs with rfl | rfl
  · rw [if_pos rfl]
    have h' : i < 2 := h
    rw [demoteTo t sf st (narrows64 narrow32) (N := 2) (by omega) (by decide) _ h']
    have := combine_cat narrow32 (sz := 8) (by unfold Shape; omega) (by decide) (by omega) a b h
    rw [show lane 64 i (Combine 16 b a) = _ from this]
  · simp only [Nat.reduceEqDiff, reduceIte]
    have h' : i < 4 := h
    cases sf <;> simp only [if_true, if_false, Bool.false_eq_true]
    · exact sat64_pair t st (fun i => satU64 t st narrow32 a) (fun i => satU64 t st narrow32 b) h'
    · cases st <;> simp only [if_true, if_false, Bool.false_eq_true]
      · exact sat64_pair t false (fun i => satI64U t narrow32 a) (fun i => satI64U t narrow32 b) h'
      · exact sat64_pair t true (fun i => satI64I t narrow32 a) (fun i => satI64I t narrow32 b) h'

/-- `ReorderDemote2To` and `OrderedDemote2To`: the lanes of `a`, then those of `b`, each replaced by the nearest value of
the narrower type. (64-bit lanes of full vectors: AVX2 works on 256-bit registers, see `C75_demote2To128`.) -/
theorem C65_demote2To (t : Tgt) (signedFrom signedTo : Bool) {n sz : Nat} (hn : NarrowW n) (hs : Shape n sz)
    (h2 : 2 ≤ Lanes n sz) (_h256 : n = 32 → sz = 16 → t ≠ .avx2) (a b : M128) {i : Nat} (h : i < Lanes n sz) :
    val signedTo (lane n i (ReorderDemote2To t signedFrom signedTo n sz a b))
      = max (lo signedTo n) (min (val signedFrom
          (if i < Lanes n sz / 2 then lane (2 * n) i a else lane (2 * n) (i - Lanes n sz / 2) b)) (hi signedTo n)) := by
  rw [← val_satLane signedTo hn]
  congr 1
  unfold ReorderDemote2To
  by_cases e : n = 32
  · subst e
    rw [if_pos rfl]
    have : sz = 8 ∨ sz = 16 := by unfold Shape at hs; unfold Lanes at h2; omega
    exact reorder64 t signedFrom signedTo this a b h
  · rw [if_neg e]
    have hn' : n = 8 ∨ n = 16 := by unfold NarrowW at hn; omega
    cases signedFrom <;> simp only [if_true, if_false, Bool.false_eq_true]
    · exact reorderU t signedTo hn' hs h2 a b h
    · exact reorderI t signedTo hn' hs h2 a b h

end Hwy.X86
