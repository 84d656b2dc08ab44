import Verif.GenArithSpec4

/-!
# C39: reductions over selected lanes
-/

namespace Hwy
namespace Emu
open CInt Finset

set_option linter.unusedSectionVars false

section
variable {t : Ty} (h : t ∈ laneTys) {N : Nat} (hN : N ≤ cap t)
include h hN

theorem one_lane (h0 : 0 < N) {v : List Int} (hv : Reg t v) : readAt v 0 = .ok (lane v 0) :=
  readAt_some (lane_some (by rw [hv.len]; omega))

theorem wide8 (hb : t.bits = 8) : t.wide ∈ laneTys ∧ t.wide.bits = 16 ∧ t.wide.sgn = t.sgn ∧ cap t.wide = 8 ∧
    t.wide ≠ i32 ∧ t.wide ≠ i64 := by
  have : ∀ t ∈ laneTys, t.bits = 8 → t.wide ∈ laneTys ∧ t.wide.bits = 16 ∧ t.wide.sgn = t.sgn ∧ cap t.wide = 8 ∧
    t.wide ≠ i32 ∧ t.wide ≠ i64 := by decide
  exact this t h hb

theorem reduce_sum_any (h0 : 0 < N) {v : List Int} (hv : Reg t v)
    (hov : t = i32 ∨ t = i64 → 1 < N → ∀ k, k ≤ N → t.Has (∑ i ∈ range k, lane v i)) :
    ∃ s, reduceSum t N v = .ok s ∧ t.Has s ∧ s ≡ ∑ i ∈ range N, lane v i [ZMOD 2 ^ t.bits] := by
  unfold reduceSum
  split_ifs with h1 h2
  · subst h1
    refine ⟨_, one_lane h hN (by omega) hv, hv.lane_has (by omega), ?_⟩
    simp
  · obtain ⟨w1, w2, w3, w4, w5, w6⟩ := wide8 h hN h2.1
    obtain ⟨rfl⟩ := h2.2
    obtain ⟨w, ew, hw⟩ := xpromote (Is.refl (N := 4) hv) h w1 (by omega) (by rw [w3]; exact id) (by omega)
    rw [ew, ok_bind']
    obtain ⟨s, es, hs, hm⟩ := C38_reduce_sum w1 (N := 4) (by omega) hw.1 (fun c => by rcases c with c | c <;> contradiction)
    rw [es, ok_bind']
    refine ⟨_, rfl, has_wrap' h _, (modEq_wrap t _).trans ?_⟩
    have : s ≡ ∑ i ∈ range 4, lane v i [ZMOD 2 ^ t.wide.bits] := by
      have e : ∑ i ∈ range 4, lane w i = ∑ i ∈ range 4, lane v i := sum_congr rfl fun i hi => hw.2 i (by simpa using hi)
      rw [e] at hm
      exact hm
    rw [w2] at this
    rw [h2.1]
    exact this.of_dvd (by norm_num)
  · exact C38_reduce_sum h hN hv (fun c => hov c (by omega))

theorem reduce_min_any (h0 : 0 < N) {v : List Int} (hv : Reg t v) :
    ∃ s, reduceMin t N v = .ok s ∧ (∃ i, i < N ∧ s = lane v i) ∧ ∀ i, i < N → s ≤ lane v i := by
  unfold reduceMin
  split_ifs with h1 h2
  · subst h1
    refine ⟨_, one_lane h hN (by omega) hv, ⟨0, by omega, rfl⟩, fun i hi => ?_⟩
    obtain rfl : i = 0 := by omega
    exact le_rfl
  · obtain ⟨w1, w2, w3, w4, w5, w6⟩ := wide8 h hN h2.1
    obtain ⟨rfl⟩ := h2.2
    obtain ⟨w, ew, hw⟩ := xpromote (Is.refl (N := 4) hv) h w1 (by omega) (by rw [w3]; exact id) (by omega)
    rw [ew, ok_bind']
    obtain ⟨s, es, ⟨i, hi, hs⟩, hm⟩ := C38_reduce_min w1 (N := 4) (by omega) (by omega) hw.1
    rw [es, ok_bind']
    have e : t.wrap s = lane v i := by rw [hs, hw.2 i hi]; exact wrap_has' h (hv.lane_has (by omega))
    refine ⟨_, rfl, ⟨i, hi, e⟩, fun j hj => ?_⟩
    rw [e, ← hw.2 i hi, ← hs, ← hw.2 j hj]
    exact hm j hj
  · exact C38_reduce_min h hN h0 hv

theorem reduce_max_any (h0 : 0 < N) {v : List Int} (hv : Reg t v) :
    ∃ s, reduceMax t N v = .ok s ∧ (∃ i, i < N ∧ s = lane v i) ∧ ∀ i, i < N → lane v i ≤ s := by
  unfold reduceMax
  split_ifs with h1 h2
  · subst h1
    refine ⟨_, one_lane h hN (by omega) hv, ⟨0, by omega, rfl⟩, fun i hi => ?_⟩
    obtain rfl : i = 0 := by omega
    exact le_rfl
  · obtain ⟨w1, w2, w3, w4, w5, w6⟩ := wide8 h hN h2.1
    obtain ⟨rfl⟩ := h2.2
    obtain ⟨w, ew, hw⟩ := xpromote (Is.refl (N := 4) hv) h w1 (by omega) (by rw [w3]; exact id) (by omega)
    rw [ew, ok_bind']
    obtain ⟨s, es, ⟨i, hi, hs⟩, hm⟩ := C38_reduce_max w1 (N := 4) (by omega) (by omega) hw.1
    rw [es, ok_bind']
    have e : t.wrap s = lane v i := by rw [hs, hw.2 i hi]; exact wrap_has' h (hv.lane_has (by omega))
    refine ⟨_, rfl, ⟨i, hi, e⟩, fun j hj => ?_⟩
    rw [e, ← hw.2 i hi, ← hs, ← hw.2 j hj]
    exact hm j hj
  · exact C38_reduce_max h hN h0 hv

variable {m : List Int} {p : Nat → Bool} (hm : IsMask t N m p)
include hm

/-- `MaskedReduceSum`: the sum of the selected lanes (mod 2^bits); as for `ReduceSum`, partial sums of 32/64-bit
signed lanes must not overflow. -/
theorem C39_masked_reduce_sum (h0 : 0 < N) {v : List Int} (hv : Reg t v)
    (hov : t = i32 ∨ t = i64 → 1 < N → ∀ k, k ≤ N → t.Has (∑ i ∈ (range k).filter (fun i => p i = true), lane v i)) :
    ∃ s, MaskedReduceSum t N m v = .ok s ∧ t.Has s ∧
      s ≡ ∑ i ∈ (range N).filter (fun i => p i = true), lane v i [ZMOD 2 ^ t.bits] := by
  obtain ⟨w, ew, hw⟩ := xitez h hN hm (Is.refl (N := N) hv)
  unfold MaskedReduceSum
  rw [ew, ok_bind']
  have key : ∀ k, k ≤ N → ∑ i ∈ range k, lane w i = ∑ i ∈ (range k).filter (fun i => p i = true), lane v i := by
    intro k hk
    rw [sum_filter]
    exact sum_congr rfl fun i hi => hw.2 i (by have : i < k := by simpa using hi
                                               omega)
  obtain ⟨s, es, hs, hm'⟩ := reduce_sum_any h hN h0 hw.1 (fun c c1 k hk => by rw [key k hk]; exact hov c c1 k hk)
  exact ⟨s, es, hs, by rw [← key N le_rfl]; exact hm'⟩

/-- `MaskedReduceMin`: the smallest selected lane, or the largest value of the type if none is selected. -/
theorem C39_masked_reduce_min (h0 : 0 < N) {v : List Int} (hv : Reg t v) :
    ∃ s, MaskedReduceMin t N m v = .ok s ∧
      ((∃ i, i < N ∧ p i = true ∧ s = lane v i) ∨ ((∀ i, i < N → p i = false) ∧ s = t.hi)) ∧
      ∀ i, i < N → p i = true → s ≤ lane v i := by
  have hlh : t.lo ≤ t.hi := by have : ∀ t ∈ laneTys, t.lo ≤ t.hi := by decide
                               exact this t h
  obtain ⟨f, ef, hf⟩ := xset h hN (show t.Has t.hi from ⟨hlh, le_rfl⟩)
  obtain ⟨w, ew, hw⟩ := xite h hN hm (Is.refl (N := N) hv) hf
  unfold MaskedReduceMin
  rw [ef, ok_bind', ew, ok_bind']
  obtain ⟨s, es, ⟨i, hi, hs⟩, hl⟩ := reduce_min_any h hN h0 hw.1
  have sel : ∀ j, j < N → p j = true → s ≤ lane v j := by
    intro j hj hp
    have := hl j hj
    rw [hw.2 j hj] at this
    beta_reduce at this
    rw [if_pos hp] at this
    exact this
  refine ⟨s, es, ?_, sel⟩
  rw [hw.2 i hi] at hs
  beta_reduce at hs
  by_cases c : p i = true
  · exact Or.inl ⟨i, hi, c, by rw [hs, if_pos c]⟩
  · rw [if_neg c] at hs
    by_cases c2 : ∀ j, j < N → p j = false
    · exact Or.inr ⟨c2, hs⟩
    · simp only [not_forall] at c2
      obtain ⟨j, hj, hp⟩ := c2
      have hp' : p j = true := by simpa using hp
      refine Or.inl ⟨j, hj, hp', le_antisymm (sel j hj hp') ?_⟩
      rw [hs]
      exact (hv.lane_has (i := j) (by omega)).2

/-- `MaskedReduceMax`: the largest selected lane, or the smallest value of the type if none is selected. -/
theorem C39_masked_reduce_max (h0 : 0 < N) {v : List Int} (hv : Reg t v) :
    ∃ s, MaskedReduceMax t N m v = .ok s ∧
      ((∃ i, i < N ∧ p i = true ∧ s = lane v i) ∨ ((∀ i, i < N → p i = false) ∧ s = t.lo)) ∧
      ∀ i, i < N → p i = true → lane v i ≤ s := by
  have hlh : t.lo ≤ t.hi := by have : ∀ t ∈ laneTys, t.lo ≤ t.hi := by decide
                               exact this t h
  obtain ⟨f, ef, hf⟩ := xset h hN (show t.Has t.lo from ⟨le_rfl, hlh⟩)
  obtain ⟨w, ew, hw⟩ := xite h hN hm (Is.refl (N := N) hv) hf
  unfold MaskedReduceMax
  rw [ef, ok_bind', ew, ok_bind']
  obtain ⟨s, es, ⟨i, hi, hs⟩, hl⟩ := reduce_max_any h hN h0 hw.1
  have sel : ∀ j, j < N → p j = true → lane v j ≤ s := by
    intro j hj hp
    have := hl j hj
    rw [hw.2 j hj] at this
    beta_reduce at this
    rw [if_pos hp] at this
    exact this
  refine ⟨s, es, ?_, sel⟩
  rw [hw.2 i hi] at hs
  beta_reduce at hs
  by_cases c : p i = true
  · exact Or.inl ⟨i, hi, c, by rw [hs, if_pos c]⟩
  · rw [if_neg c] at hs
    by_cases c2 : ∀ j, j < N → p j = false
    · exact Or.inr ⟨c2, hs⟩
    · simp only [not_forall] at c2
      obtain ⟨j, hj, hp⟩ := c2
      have hp' : p j = true := by simpa using hp
      refine Or.inl ⟨j, hj, hp', le_antisymm ?_ (sel j hj hp')⟩
      rw [hs]
      exact (hv.lane_has (i := j) (by omega)).1

end

/-! ### Mask conversions -/

section
variable {t : Ty} (h : t ∈ laneTys) {N : Nat} (hN : N ≤ cap t)
include h hN

/-- The lanes of a mask read as signed integers: -1 or 0. -/
theorem mask_vec {m : List Int} {p : Nat → Bool} (hm : IsMask t N m p) :
    Is t.signed N (BitCast t t.signed (vecFromMask t m)) (fun i => if p i then -1 else 0) := by
  obtain ⟨hsm, hsb, hss, hsc⟩ := signed_facts h
  have e := is_bc_same (is_vecFromMask h hm) hsm hsb (by omega)
  refine ⟨e.1, fun i hi => ?_⟩
  rw [e.2 i hi]
  have key : ∀ t ∈ laneTys, t.signed.wrap (t.wrap (-1)) = -1 ∧ t.signed.wrap 0 = 0 := by decide +kernel
  beta_reduce
  split_ifs
  · exact (key t h).1
  · exact (key t h).2

/-- A vector of -1 and 0 read as a mask. -/
theorem vec_mask {v : List Int} {p : Nat → Bool} (hv : Is t.signed N v (fun i => if p i then -1 else 0)) :
    IsMask t N (maskFromVec t (BitCast t.signed t v)) p := by
  obtain ⟨hsm, hsb, hss, hsc⟩ := signed_facts h
  refine is_mask h hN (is_bc_same hv h hsb.symm (by omega)) fun i _ => ?_
  beta_reduce
  split_ifs
  · rfl
  · exact wrap_zero h

end

section
variable {tF tT : Ty} (hF : tF ∈ laneTys) (hT : tT ∈ laneTys)
include hF hT

/-- `PromoteMaskTo`: the same mask for wider lanes. -/
theorem C39_promote_mask (hb : tF.bits < tT.bits) {N : Nat} (hN : N ≤ cap tT) {m : List Int} {p : Nat → Bool}
    (hm : IsMask tF N m p) : ∃ r, PromoteMaskTo tF tT N m = .ok r ∧ IsMask tT N r p := by
  obtain ⟨f1, f2, f3, f4⟩ := signed_facts hF
  obtain ⟨t1, t2, t3, t4⟩ := signed_facts hT
  have hc := cap_le (tT := tT) hF (by omega)
  exact Runs.bindM (xpromote (mask_vec hF (by omega) hm) f1 t1 (by omega) (fun _ => t3) (by omega)) fun v hv =>
    RunsM.ret (vec_mask hT hN hv)

/-- `DemoteMaskTo`: the same mask for narrower lanes. -/
theorem C39_demote_mask (hb : tT.bits < tF.bits) {N : Nat} (hN : N ≤ cap tF) {m : List Int} {p : Nat → Bool}
    (hm : IsMask tF N m p) : ∃ r, DemoteMaskTo tF tT N m = .ok r ∧ IsMask tT N r p := by
  obtain ⟨f1, f2, f3, f4⟩ := signed_facts hF
  obtain ⟨t1, t2, t3, t4⟩ := signed_facts hT
  have hc := cap_le (tT := tF) hT (by omega)
  refine Runs.bindM (ydemote f1 t1 (by omega) (by omega) (mask_vec hF hN hm)) fun v hv =>
    RunsM.ret (vec_mask hT (by omega) ⟨hv.1, fun i hi => ?_⟩)
  rw [hv.2 i hi]
  have key : ∀ t ∈ laneTys, clamp t.signed (-1) = -1 ∧ clamp t.signed 0 = 0 := by decide +kernel
  beta_reduce
  split_ifs
  · exact (key tT hT).1
  · exact (key tT hT).2

/-- `OrderedDemote2MasksTo`: the mask `a` followed by the mask `b`, for lanes of half the width. -/
theorem C39_ordered_demote2_masks (hb : tF.bits = 2 * tT.bits) {NW : Nat} (hN : NW ≤ cap tF) {a b : List Int}
    {p q : Nat → Bool} (ha : IsMask tF NW a p) (hb' : IsMask tF NW b q) :
    ∃ r, OrderedDemote2MasksTo tF tT NW a b = .ok r ∧
      IsMask tT (2 * NW) r (fun i => if i < NW then p i else q (i - NW)) := by
  obtain ⟨f1, f2, f3, f4⟩ := signed_facts hF
  obtain ⟨t1, t2, t3, t4⟩ := signed_facts hT
  have hc := cap_double hF hT hb
  refine Runs.bindM (ydemote2 f1 t1 (by omega) (by omega) (mask_vec hF hN ha) (mask_vec hF hN hb')) fun v hv =>
    RunsM.ret (vec_mask hT (by omega) ⟨hv.1, fun i hi => ?_⟩)
  rw [hv.2 i hi]
  have key : ∀ t ∈ laneTys, clamp t.signed (-1) = -1 ∧ clamp t.signed 0 = 0 := by decide +kernel
  beta_reduce
  split_ifs
  all_goals first | exact (key tT hT).1 | exact (key tT hT).2

end

section
variable {t : Ty} (h : t ∈ laneTys) {H : Nat} (hH : 2 * H ≤ cap t)
include h hH

/-- `CombineMasks`: `lo` then `hi`. -/
theorem C39_combine_masks {hi lo : List Int} {p q : Nat → Bool} (hh : IsMask t H hi p) (hl : IsMask t H lo q) :
    ∃ r, CombineMasks t H hi lo = .ok r ∧ IsMask t (2 * H) r (fun i => if i < H then q i else p (i - H)) :=
  Runs.bindM (ycombine h hH (is_vecFromMask h hh) (is_vecFromMask h hl)) fun v hv =>
    RunsM.ret (is_mask h hH hv fun i _ => by split_ifs <;> simp_all)

/-- `LowerHalfOfMask`, `UpperHalfOfMask`. -/
theorem C39_half_of_mask {m : List Int} {p : Nat → Bool} (hm : IsMask t (2 * H) m p) :
    (∃ r, LowerHalfOfMask t H m = .ok r ∧ IsMask t H r p) ∧
    (∃ r, UpperHalfOfMask t H m = .ok r ∧ IsMask t H r (fun i => p (H + i))) :=
  ⟨Runs.bindM (xlower (is_vecFromMask h hm) h hH (by omega)) fun v hv => RunsM.ret (is_mask h (by omega) hv fun i _ => rfl),
   Runs.bindM (xupper (is_vecFromMask h hm) h hH (by omega)) fun v hv => RunsM.ret (is_mask h (by omega) hv fun i _ => rfl)⟩

end

/-- `MaskFalse`: no lane. -/
theorem C39_mask_false {t : Ty} (h : t ∈ laneTys) {N : Nat} (hN : N ≤ cap t) : IsMask t N (MaskFalse t) (fun _ => false) :=
  is_mask h hN (is_zero h N) fun i _ => by simp

end Emu
end Hwy
