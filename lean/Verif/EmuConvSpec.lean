import Verif.EmuConv
import Verif.EmuMoveSpec

/-!
# C49 (integers): conversions between integer lane types

Promotion keeps every value, demotion clamps to the destination type, truncation keeps the low bits, and the
two-vector forms fill the lower half from the first and the upper half from the second argument.
-/

namespace Hwy
namespace Emu
open CInt

theorem getD_lane {v : List Int} {i : Nat} (h : i < v.length) : readAt v i = .ok (lane v i) :=
  readAt_some (lane_some h)

theorem conv_lanes {t : Ty} (ht : t ∈ laneTys) {N : Nat} (hN : N ≤ cap t) {v : List Int} (hv : N ≤ v.length)
    {f : Int → M Int} {P : Nat → Int → Prop}
    (hf : ∀ i, i < N → ∃ r, f (lane v i) = .ok r ∧ t.Has r ∧ P i r) :
    Lanes t N (conv t N f v) P := by
  choose! g h1 h2 h3 using hf
  refine (lanes_of_loop (reg_zero ht) hN g h2 ?_).mono (fun i x hi e => by rw [e]; exact h3 i hi)
  intro i hi r _ _ _
  rw [getD_lane (by omega), ok_bind', h1 i hi, ok_bind']

theorem conv2_lanes {t : Ty} (ht : t ∈ laneTys) {N : Nat} (hN : 2 * N ≤ cap t) {a b : List Int} (ha : N ≤ a.length)
    (hb : N ≤ b.length) {f : Int → M Int} {P Q : Nat → Int → Prop}
    (hfa : ∀ i, i < N → ∃ r, f (lane a i) = .ok r ∧ t.Has r ∧ P i r)
    (hfb : ∀ i, i < N → ∃ r, f (lane b i) = .ok r ∧ t.Has r ∧ Q i r) :
    Lanes t (2 * N) (conv2 t N f a b) (fun i r => if i < N then P i r else Q (i - N) r) := by
  obtain ⟨r1, e1, hr1, hl1⟩ := conv_lanes ht (by omega) ha hfa
  choose! g h1 h2 h3 using hfb
  unfold conv2
  rw [e1, ok_bind']
  have key := forN_inv N (fun i ret => do let x ← readAt b i; writeAt ret (N + i) (← f x)) r1
    (fun k r => Reg t r ∧ (∀ i, i < N → lane r i = lane r1 i) ∧ ∀ i, i < k → lane r (N + i) = g i)
    ⟨hr1, fun _ _ => rfl, fun i h => by omega⟩ ?_
  · obtain ⟨r, e, hr, hA, hB⟩ := key
    refine ⟨r, e, hr, fun i hi => ?_⟩
    beta_reduce
    by_cases h : i < N
    · rw [if_pos h, hA i h]; exact hl1 i h
    · rw [if_neg h]
      have := hB (i - N) (by omega)
      rw [show N + (i - N) = i by omega] at this
      rw [this]; exact h3 _ (by omega)
  · rintro i hi r ⟨hr, hA, hB⟩
    have hw : N + i < r.length := by rw [hr.len]; omega
    refine ⟨r.set (N + i) (g i), ?_, ⟨by rw [List.length_set, hr.len], fun x hx => ?_⟩, fun j hj => ?_, fun j hj => ?_⟩
    · beta_reduce
      rw [getD_lane (by omega), ok_bind', h1 i hi, ok_bind', writeAt_of_lt _ hw]
    · rcases List.mem_or_eq_of_mem_set hx with h | h
      · exact hr.has x h
      · rw [h]; exact h2 i hi
    · rw [← hA j hj]
      simp only [lane, List.getD]
      rw [List.getElem?_set_ne (by omega)]
    · by_cases hji : j = i
      · subst hji
        simp [lane, List.getD, hw]
      · rw [← hB j (by omega)]
        simp only [lane, List.getD]
        rw [List.getElem?_set_ne (by omega)]

/-! ### Integer facts about pairs of types -/

theorem pair_tys {P : Ty → Ty → Prop} (h : ∀ s ∈ laneTys, ∀ t ∈ laneTys, P s t) {s t : Ty} (hs : s ∈ laneTys)
    (ht : t ∈ laneTys) : P s t := h s hs t ht

theorem has_sub {s t : Ty} (h : t.lo ≤ s.lo ∧ s.hi ≤ t.hi) {x : Int} (hx : s.Has x) : t.Has x :=
  ⟨h.1.trans hx.1, hx.2.trans h.2⟩

theorem clamp_in {t : Ty} (h : t ∈ laneTys) (x : Int) : t.Has (clamp t x) := by
  have : t.lo ≤ t.hi := by
    revert h; revert t; decide
  unfold clamp Ty.Has; omega

theorem lo_le_hi {t : Ty} (h : t ∈ laneTys) : t.lo ≤ t.hi := by revert h; revert t; decide

/-- The saturating expression `HWY_MIN(HWY_MAX(LimitsMin<TTo>(), x), LimitsMax<TTo>())`. -/
theorem satS_eq {tF tT : Ty} (hF : tF ∈ laneTys) (hT : tT ∈ laneTys) (hs : tF.sgn = true) (hb : tT.bits < tF.bits)
    {x : Int} (hx : tF.Has x) :
    cmin (cmax ⟨tT, tT.lo⟩ ⟨tF, x⟩) ⟨tT, tT.hi⟩ = ⟨tT.common tF, clamp tT x⟩ := by
  have hC : ∀ s ∈ laneTys, ∀ t ∈ laneTys, s.sgn = true → t.bits < s.bits →
      (t.common s).common t = t.common s ∧ 0 < (t.common s).bits ∧
      ((t.common s).lo ≤ s.lo ∧ s.hi ≤ (t.common s).hi) ∧ ((t.common s).lo ≤ t.lo ∧ t.hi ≤ (t.common s).hi) := by
    decide
  obtain ⟨e, h0, hsF, hsT⟩ := hC tF hF tT hT hs hb
  have hl := lo_le_hi hT
  have hxT := has_sub hsF hx
  rw [cmax_exact (T := tT.common tF) rfl h0 (has_sub hsT ⟨le_rfl, hl⟩) hxT]
  rw [cmin_exact (T := tT.common tF) e h0 ?_ (has_sub hsT ⟨hl, le_rfl⟩)]
  · congr 1
    simp only [clamp]
    omega
  · have h1 := has_sub hsT (x := tT.lo) ⟨le_rfl, hl⟩
    unfold Ty.Has at hxT h1 ⊢
    simp only []
    omega

theorem demoteSLane_eq {tF tT : Ty} (hF : tF ∈ laneTys) (hT : tT ∈ laneTys) (hs : tF.sgn = true)
    (hb : tT.bits < tF.bits) {x : Int} (hx : tF.Has x) : demoteSLane tF tT x = .ok (clamp tT x) := by
  unfold demoteSLane
  rw [satS_eq hF hT hs hb hx]
  have hF' : tF.Has (clamp tT x) := by
    have hC : ∀ s ∈ laneTys, ∀ t ∈ laneTys, s.sgn = true → t.bits < s.bits → s.lo ≤ t.lo ∧ t.hi ≤ s.hi := by decide
    exact has_sub (hC tF hF tT hT hs hb) (clamp_in hT x)
  simp only [CInt.cast]
  rw [wrap_has' hF hF', wrap_has' hT (clamp_in hT x)]

theorem demoteULane_eq {tF tT : Ty} (hF : tF ∈ laneTys) (hT : tT ∈ laneTys) (hs : tF.sgn = false)
    (hb : tT.bits < tF.bits) {x : Int} (hx : tF.Has x) : demoteULane tF tT x = .ok (clamp tT x) := by
  have hC : ∀ s ∈ laneTys, ∀ t ∈ laneTys, s.sgn = false → t.bits < s.bits →
      0 < (s.common t.unsigned).bits ∧ t.unsigned.Has t.hi ∧ s.lo = 0 ∧ t.lo ≤ 0 ∧ 0 ≤ t.hi ∧
      ((s.common t.unsigned).lo ≤ s.lo ∧ s.hi ≤ (s.common t.unsigned).hi) ∧ (s.common t.unsigned).Has t.hi := by
    decide
  obtain ⟨h0, h1, h2, h3, h4, h5, h6⟩ := hC tF hF tT hT hs hb
  unfold demoteULane
  simp only [CInt.cast]
  rw [wrap_has' (unsigned_mem hT) h1, cmin_exact (T := tF.common tT.unsigned) rfl h0 (has_sub h5 hx) h6]
  have hx0 : 0 ≤ x := h2 ▸ hx.1
  have e : min x tT.hi = clamp tT x := by simp only [clamp]; omega
  simp only [e]
  rw [wrap_has' hT (clamp_in hT x)]

/-! ### C49: integers -/

/-- Lane counts agree: a register of `tF` has at least as many lanes as one of a wider `tT`. -/
theorem cap_le {tF tT : Ty} (hF : tF ∈ laneTys) (hb : tF.bits ≤ tT.bits) : cap tT ≤ cap tF :=
  Nat.div_le_div_left hb (bits_pos hF)

/-- `PromoteTo`: every lane keeps its value. -/
theorem C49_promote {tF tT : Ty} (hF : tF ∈ laneTys) (hT : tT ∈ laneTys) (hb : tF.bits < tT.bits)
    (hs : tF.sgn = true → tT.sgn = true) {N : Nat} (hN : N ≤ cap tT) {v : List Int} (hv : Reg tF v) :
    Lanes tT N (PromoteInt tF tT N v) (fun i r => r = lane v i) := by
  have hc := cap_le hF hb.le
  refine conv_lanes hT hN (by rw [hv.len]; omega) (fun i hi => ⟨lane v i, ?_, ?_, rfl⟩)
  all_goals
    have hC : ∀ s ∈ laneTys, ∀ t ∈ laneTys, s.bits < t.bits → (s.sgn = true → t.sgn = true) →
      t.lo ≤ s.lo ∧ s.hi ≤ t.hi := by decide
    have h : tT.Has (lane v i) := has_sub (hC tF hF tT hT hb hs) (hv.lane_has (by omega))
  · simp only [CInt.cast]; rw [wrap_has' hT h]
  · exact h

/-- `DemoteTo` integer to narrower integer: every lane becomes the nearest value of the destination type. -/
theorem C49_demote {tF tT : Ty} (hF : tF ∈ laneTys) (hT : tT ∈ laneTys) (hb : tT.bits < tF.bits)
    {N : Nat} (hN : N ≤ cap tF) {v : List Int} (hv : Reg tF v) :
    Lanes tT N (if tF.sgn then DemoteS tF tT N v else DemoteU tF tT N v) (fun i r => r = clamp tT (lane v i)) := by
  have hc := cap_le hT hb.le
  cases hs : tF.sgn
  · exact conv_lanes hT (by omega) (by rw [hv.len]; omega)
      (fun i hi => ⟨_, demoteULane_eq hF hT hs hb (hv.lane_has (by omega)), clamp_in hT _, rfl⟩)
  · exact conv_lanes hT (by omega) (by rw [hv.len]; omega)
      (fun i hi => ⟨_, demoteSLane_eq hF hT hs hb (hv.lane_has (by omega)), clamp_in hT _, rfl⟩)

theorem cap_double {tF tT : Ty} (hF : tF ∈ laneTys) (hT : tT ∈ laneTys) (hb : tF.bits = 2 * tT.bits) :
    2 * cap tF = cap tT := by
  have hC : ∀ s ∈ laneTys, ∀ t ∈ laneTys, s.bits = 2 * t.bits → 2 * cap s = cap t := by decide
  exact hC tF hF tT hT hb

/-- `OrderedDemote2To` (and `ReorderDemote2To`, the same function here): the first argument's lanes, clamped, then the
second's. -/
theorem C49_ordered_demote2 {tF tT : Ty} (hF : tF ∈ laneTys) (hT : tT ∈ laneTys) (hb : tF.bits = 2 * tT.bits)
    {NW : Nat} (hN : NW ≤ cap tF) {a b : List Int} (ha : Reg tF a) (hb' : Reg tF b) :
    Lanes tT (2 * NW) (if tF.sgn then OrderedDemote2S tF tT NW a b else OrderedDemote2U tF tT NW a b)
      (fun i r => r = clamp tT (if i < NW then lane a i else lane b (i - NW))) := by
  have hlt : tT.bits < tF.bits := by have := bits_pos hT; omega
  have hc := cap_double hF hT hb
  have hfS : tF.sgn = true → ∀ x, tF.Has x → (Except.ok (CInt.cast tT (cmin (cmax ⟨tT, tT.lo⟩ ⟨tF, x⟩) ⟨tT, tT.hi⟩)).v : M Int)
      = .ok (clamp tT x) := by
    intro hs x hx
    rw [satS_eq hF hT hs hlt hx]
    simp only [CInt.cast]
    rw [wrap_has' hT (clamp_in hT x)]
  cases hs : tF.sgn
  · refine (conv2_lanes (P := fun i r => r = clamp tT (lane a i)) (Q := fun i r => r = clamp tT (lane b i)) hT (by omega)
      (by rw [ha.len]; omega) (by rw [hb'.len]; omega)
      (fun i hi => ⟨_, demoteULane_eq hF hT hs hlt (ha.lane_has (by omega)), clamp_in hT _, rfl⟩)
      (fun i hi => ⟨_, demoteULane_eq hF hT hs hlt (hb'.lane_has (by omega)), clamp_in hT _, rfl⟩)).mono ?_
    intro i x hi h
    beta_reduce at h
    split_ifs at h ⊢ <;> exact h
  · refine (conv2_lanes (P := fun i r => r = clamp tT (lane a i)) (Q := fun i r => r = clamp tT (lane b i)) hT (by omega)
      (by rw [ha.len]; omega) (by rw [hb'.len]; omega)
      (fun i hi => ⟨_, hfS hs _ (ha.lane_has (by omega)), clamp_in hT _, rfl⟩)
      (fun i hi => ⟨_, hfS hs _ (hb'.lane_has (by omega)), clamp_in hT _, rfl⟩)).mono ?_
    intro i x hi h
    split_ifs at h ⊢ <;> exact h

/-- Masking with all ones of the low `n` bits, then conversion to a type of `n` bits: the low bits. -/
theorem trunc_eq {tF tT m : Ty} (hT : tT ∈ laneTys) (hn : tT.bits ≤ (tF.common m).bits) (x : Int) (hu : tT.sgn = false) :
    (CInt.cast tT (band ⟨tF, x⟩ ⟨m, tT.hi⟩)).v = x % 2 ^ tT.bits := by
  simp only [CInt.cast]
  have hw : tT.wrap x = x % 2 ^ tT.bits := by simp [Ty.wrap, hu]
  rw [← hw]
  apply ofBits_inj tT (bits_pos hT) (has_wrap' hT _) (has_wrap' hT _)
  rw [ofInt_wrap, ofInt_wrap, band_low _ _ hn]
  have : BitVec.ofInt tT.bits tT.hi = BitVec.allOnes tT.bits := by
    simp only [laneTys, List.mem_cons, List.not_mem_nil, or_false] at hT
    rcases hT with h | h | h | h | h | h | h | h <;> subst h <;> first | decide | simp_all [i8, i16, i32, i64]
  rw [this, BitVec.and_allOnes]

theorem mod_has {t : Ty} (hT : t ∈ laneTys) (hu : t.sgn = false) (x : Int) : t.Has (x % 2 ^ t.bits) := by
  have h := has_wrap' hT x
  simpa [Ty.wrap, hu] using h

/-- `TruncateTo`: the low bits of every lane. -/
theorem C49_truncate {tF tT : Ty} (hF : tF ∈ laneTys) (hT : tT ∈ laneTys) (hb : tT.bits < tF.bits)
    (hu : tT.sgn = false) {N : Nat} (hN : N ≤ cap tF) {v : List Int} (hv : Reg tF v) :
    Lanes tT N (TruncateTo tF tT N v) (fun i r => r = lane v i % 2 ^ tT.bits) := by
  have hC : ∀ s ∈ laneTys, ∀ t ∈ laneTys, t.bits < s.bits → t.bits ≤ (s.common t.promote).bits := by decide
  have hc := cap_le hT hb.le
  exact conv_lanes hT (by omega) (by rw [hv.len]; omega)
    (fun i hi => ⟨_, rfl, by rw [trunc_eq hT (hC _ hF _ hT hb) _ hu]; exact mod_has hT hu _, trunc_eq hT (hC _ hF _ hT hb) _ hu⟩)

/-- `OrderedTruncate2To`: the low bits of the lanes of the first argument, then of the second. -/
theorem C49_ordered_truncate2 {tF tT : Ty} (hF : tF ∈ laneTys) (hT : tT ∈ laneTys) (hb : tF.bits = 2 * tT.bits)
    (hu : tT.sgn = false) {NW : Nat} (hN : NW ≤ cap tF) {a b : List Int} (ha : Reg tF a) (hb' : Reg tF b) :
    Lanes tT (2 * NW) (OrderedTruncate2To tF tT NW a b)
      (fun i r => r = (if i < NW then lane a i else lane b (i - NW)) % 2 ^ tT.bits) := by
  have hC : ∀ s ∈ laneTys, ∀ t ∈ laneTys, s.bits = 2 * t.bits → t.bits ≤ (s.common s).bits := by decide
  have hc := cap_double hF hT hb
  have e := fun x => trunc_eq (tF := tF) (m := tF) hT (hC _ hF _ hT hb) x hu
  refine (conv2_lanes (f := fun x => .ok (CInt.cast tT (band ⟨tF, x⟩ ⟨tF, tT.hi⟩)).v) (P := fun i r => r = lane a i % 2 ^ tT.bits)
      (Q := fun i r => r = lane b i % 2 ^ tT.bits) hT (by omega)
      (by rw [ha.len]; omega) (by rw [hb'.len]; omega)
      (fun i hi => ⟨_, congrArg Except.ok (e _), mod_has hT hu _, rfl⟩)
      (fun i hi => ⟨_, congrArg Except.ok (e _), mod_has hT hu _, rfl⟩)).mono ?_
  intro i x hi h
  split_ifs at h ⊢ <;> exact h

/-- `U8FromU32`. -/
theorem C49_u8_from_u32 {N : Nat} (hN : N ≤ 4) {v : List Int} (hv : Reg u32 v) :
    Lanes u8 N (U8FromU32 N v) (fun i r => r = min 255 (lane v i)) := by
  refine (C49_demote (tF := u32) (tT := u8) (by decide) (by decide) (by decide) (N := N) hN hv).mono ?_
  intro i x hi h
  have := (hv.lane_has (i := i) (by show i < 4; omega)).1
  rw [h]
  have e : clamp u8 (lane v i) = max 0 (min 255 (lane v i)) := rfl
  rw [e]
  have : (0:Int) ≤ lane v i := this
  omega

end Emu
end Hwy
