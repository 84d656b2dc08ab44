import Verif.EmuConvSpec3

/-!
# C49 (users of the widening of every other lane; `bfloat16_t` pairs)
-/

namespace Hwy
namespace Emu
open CInt Flt

set_option linter.unusedSectionVars false

/-- The lane types with a type of twice the size. -/
def halfTys : List Ty := [u8, i8, u16, i16, u32, i32]

section
variable {tF : Ty} (hF : tF ∈ halfTys) {N : Nat} (hN : N ≤ cap tF.wide) (ar : Bool)
include hF hN

theorem half_lane : tF ∈ laneTys ∧ tF.wide ∈ laneTys := by
  revert hF; clear hN; revert tF; decide

section
variable {a b : List Int} (ha : Reg tF a) (hb : Reg tF b)
include ha

theorem prom_even : Lanes tF.wide N (PromoteEvenTo ar tF tF.wide N a) (fun i r => r = lane a (2 * i)) :=
  C49_promote_even (half_lane hF hN).1 (half_lane hF hN).2 rfl id hN ha ar
theorem prom_odd : Lanes tF.wide N (PromoteOddTo ar tF tF.wide N a) (fun i r => r = lane a (2 * i + 1)) :=
  C49_promote_odd (half_lane hF hN).1 (half_lane hF hN).2 rfl id hN ha ar

/-- `SumsOf2`: the exact sum of lanes `2 i` and `2 i + 1`. -/
theorem C49_sums_of_2 : Lanes tF.wide N (SumsOf2 ar tF N a) (fun i r => r = lane a (2 * i) + lane a (2 * i + 1)) := by
  obtain ⟨h1, h2⟩ := half_lane hF hN
  obtain ⟨e, ee, he, hle⟩ := prom_even hF hN ar ha
  obtain ⟨o, eo, ho, hlo⟩ := prom_odd hF hN ar ha
  unfold SumsOf2
  rw [ee, ok_bind', eo, ok_bind']
  obtain ⟨w, ew, hw, hlw⟩ := C38_add h2 hN he ho
  refine ⟨w, ew, hw, fun i hi => ?_⟩
  have h3 := hlw i hi
  beta_reduce at h3
  have c2 := cap_two h1 h2 rfl id hN ha (i := i) (by omega)
  rw [hle i hi, hlo i hi] at h3
  refine eq_of_mod h2 (hw.lane_has (by omega)) ?_ h3
  have hC : ∀ t ∈ halfTys, t.wide.lo ≤ 2 * t.lo ∧ 2 * t.hi ≤ t.wide.hi := by decide
  have := hC tF hF
  have k1 := ha.lane_has (i := 2 * i) (by omega)
  have k2 := ha.lane_has c2
  unfold Ty.Has at k1 k2 ⊢
  omega

include hb

/-- `WidenMulPairwiseAdd`: `a[2i] b[2i] + a[2i+1] b[2i+1]` (mod 2^bits of the wide lane). -/
theorem C49_widen_mul_pairwise_add : Lanes tF.wide N (WidenMulPairwiseAdd ar tF N a b) (fun i r =>
    r ≡ lane a (2 * i) * lane b (2 * i) + lane a (2 * i + 1) * lane b (2 * i + 1) [ZMOD 2 ^ tF.wide.bits]) := by
  obtain ⟨h1, h2⟩ := half_lane hF hN
  obtain ⟨ae, eae, hae, lae⟩ := prom_even hF hN ar ha
  obtain ⟨ao, eao, hao, lao⟩ := prom_odd hF hN ar ha
  obtain ⟨be, ebe, hbe, lbe⟩ := prom_even hF hN ar hb
  obtain ⟨bo, ebo, hbo, lbo⟩ := prom_odd hF hN ar hb
  unfold WidenMulPairwiseAdd MulAdd
  rw [eao, ok_bind', ebo, ok_bind']
  obtain ⟨p, ep, hp, lp⟩ := C38_mul h2 hN hao hbo
  rw [ep, ok_bind', eae, ok_bind', ebe, ok_bind']
  obtain ⟨q, eq, hq, lq⟩ := C38_mul h2 hN hae hbe
  rw [eq, ok_bind']
  refine (C38_add h2 hN hq hp).mono (fun i x hi e => e.trans ?_)
  have l1 := lp i hi
  have l2 := lq i hi
  beta_reduce at l1 l2
  rw [lao i hi, lbo i hi] at l1
  rw [lae i hi, lbe i hi] at l2
  exact l2.add l1

/-- `ReorderWidenMulAccumulate`: the products of even lanes are added to the result (`sum0`), those of odd lanes to
`sum1`; so the sum of both grows by `a[2i] b[2i] + a[2i+1] b[2i+1]`. -/
theorem C49_reorder_widen_mul_accumulate {s0 s1 : List Int} (h0 : Reg tF.wide s0) (h1' : Reg tF.wide s1) :
    ∃ r0 r1, ReorderWidenMulAccumulate ar tF N a b s0 s1 = .ok (r0, r1) ∧ Reg tF.wide r0 ∧ Reg tF.wide r1 ∧
      ∀ i, i < N →
        lane r0 i ≡ lane s0 i + lane a (2 * i) * lane b (2 * i) [ZMOD 2 ^ tF.wide.bits] ∧
        lane r1 i ≡ lane s1 i + lane a (2 * i + 1) * lane b (2 * i + 1) [ZMOD 2 ^ tF.wide.bits] := by
  obtain ⟨h1, h2⟩ := half_lane hF hN
  obtain ⟨ae, eae, hae, lae⟩ := prom_even hF hN ar ha
  obtain ⟨ao, eao, hao, lao⟩ := prom_odd hF hN ar ha
  obtain ⟨be, ebe, hbe, lbe⟩ := prom_even hF hN ar hb
  obtain ⟨bo, ebo, hbo, lbo⟩ := prom_odd hF hN ar hb
  obtain ⟨p, ep, hp, lp⟩ := C38_mul h2 hN hao hbo
  obtain ⟨q, eq, hq, lq⟩ := C38_mul h2 hN hae hbe
  obtain ⟨r1, er1, hr1, lr1⟩ := C38_add h2 hN hp h1'
  obtain ⟨r0, er0, hr0, lr0⟩ := C38_add h2 hN hq h0
  refine ⟨r0, r1, ?_, hr0, hr1, fun i hi => ?_⟩
  · unfold ReorderWidenMulAccumulate MulAdd
    simp only [eao, ebo, eae, ebe, ep, eq, er0, er1, ok_bind']
    rfl
  · have l1 := lp i hi
    have l2 := lq i hi
    have l3 := lr0 i hi
    have l4 := lr1 i hi
    beta_reduce at l1 l2 l3 l4
    rw [lao i hi, lbo i hi] at l1
    rw [lae i hi, lbe i hi] at l2
    rw [add_comm (lane s0 i), add_comm (lane s1 i)]
    exact ⟨l3.trans (l2.add_right _), l4.trans (l1.add_right _)⟩

/-- After `ReorderWidenMulAccumulate`, `RearrangeToOddPlusEven` gives lane `i` the sum of the products of lanes `2i` and
`2i + 1` plus both previous sums. -/
theorem C49_rearrange_to_odd_plus_even {s0 s1 : List Int} (h0 : Reg tF.wide s0) (h1' : Reg tF.wide s1) :
    Lanes tF.wide N (do
        let (r0, r1) ← ReorderWidenMulAccumulate ar tF N a b s0 s1
        RearrangeToOddPlusEven tF.wide N r0 r1) (fun i r =>
      r ≡ lane s0 i + lane s1 i + lane a (2 * i) * lane b (2 * i) + lane a (2 * i + 1) * lane b (2 * i + 1)
        [ZMOD 2 ^ tF.wide.bits]) := by
  obtain ⟨r0, r1, e, g0, g1, hl⟩ := C49_reorder_widen_mul_accumulate hF hN ar ha hb h0 h1'
  rw [e, ok_bind']
  refine (C38_add (half_lane hF hN).2 hN g0 g1).mono (fun i x hi hx => hx.trans ?_)
  have := (hl i hi).1.add (hl i hi).2
  refine this.trans ?_
  rw [show lane s0 i + lane a (2 * i) * lane b (2 * i) + (lane s1 i + lane a (2 * i + 1) * lane b (2 * i + 1)) =
    lane s0 i + lane s1 i + lane a (2 * i) * lane b (2 * i) + lane a (2 * i + 1) * lane b (2 * i + 1) by ring]

end
end

/-! ### bfloat16_t -/

theorem bits32 {x : Int} (hx : 0 ≤ x ∧ x ≤ 4294967295) : (bitsOf u32 x).toNat = x.toNat := by
  show (BitVec.ofInt 32 x).toNat = _
  rw [BitVec.toNat_ofInt]; omega

theorem wide16 {N : Nat} (hN : N ≤ 4) {v : List Int} (hv : Reg u16 v) {i : Nat} (hi : i < N) :
    lane (BitCast u16 u32 v) i = pat v (2 * i) + 65536 * pat v (2 * i + 1) ∧ pat v (2 * i) < 65536 ∧
      pat v (2 * i + 1) < 65536 := by
  have h := bitcast_wide (tF := u16) (tT := u32) rfl (v := v) (j := i) (show i < 4 by omega)
    (by rw [hv.len]; show 2 * i + 1 < 8; omega)
  have h1 : (0:Int) ≤ lane v (2 * i) ∧ lane v (2 * i) ≤ 65535 := hv.lane_has (i := 2 * i) (by show 2 * i < 8; omega)
  have h2 : (0:Int) ≤ lane v (2 * i + 1) ∧ lane v (2 * i + 1) ≤ 65535 :=
    hv.lane_has (i := 2 * i + 1) (by show 2 * i + 1 < 8; omega)
  have h3 : (0:Int) ≤ lane (BitCast u16 u32 v) i ∧ lane (BitCast u16 u32 v) i ≤ 4294967295 :=
    (bitcast_reg (tF := u16) (tT := u32) (by decide) v).lane_has (i := i) (by show i < 4; omega)
  have h4 : lane (BitCast u16 u32 v) i % 4294967296 = (lane v (2 * i) % 65536 + 65536 * lane v (2 * i + 1)) % 4294967296 := h
  unfold pat
  omega

/-- `PromoteEvenTo`, `bfloat16_t` to `float`: as `PromoteTo` of lane `2i`. -/
theorem C49_promote_even_bf16 {N : Nat} (hN : N ≤ 4) {v : List Int} (hv : Reg u16 v) :
    Lanes u32 N (PromoteEvenBF16 N v) (fun i r => r.toNat = f32FromBF16 (pat v (2 * i))) := by
  refine lanes_has (t := u32) (N := N) hN (C38_shift_left (t := u32) (by decide) (N := N) hN
    (bitcast_reg (tF := u16) (by decide) v) (k := 16) (by decide)) (fun i x hi hx h => ?_)
  obtain ⟨e, b1, b2⟩ := wide16 hN hv hi
  rw [e] at h
  have hx' : (0:Int) ≤ x ∧ x ≤ 4294967295 := hx
  have h' : x % 4294967296 = ((pat v (2 * i) + 65536 * pat v (2 * i + 1)) * 65536 : Int) % 4294967296 := h
  unfold f32FromBF16
  rw [Nat.shiftLeft_eq]
  omega

/-- `PromoteOddTo`, `bfloat16_t` to `float`: as `PromoteTo` of lane `2i + 1`. -/
theorem C49_promote_odd_bf16 {N : Nat} (hN : N ≤ 4) {v : List Int} (hv : Reg u16 v) :
    Lanes u32 N (PromoteOddBF16 N v) (fun i r => r.toNat = f32FromBF16 (pat v (2 * i + 1))) := by
  obtain ⟨m, em, hm, lm⟩ := C38_set (t := u32) (by decide) (N := N) hN (x := 0xFFFF0000) (by decide)
  unfold PromoteOddBF16
  rw [em, ok_bind']
  refine lanes_has (t := u32) (N := N) hN (C38_and (t := u32) (by decide) hN
    (bitcast_reg (tF := u16) (by decide) v) hm) (fun i x hi hx h => ?_)
  obtain ⟨e, b1, b2⟩ := wide16 hN hv hi
  rw [lm i hi, e] at h
  have hx' : (0:Int) ≤ x ∧ x ≤ 4294967295 := hx
  rw [← bits32 hx', h]
  unfold f32FromBF16
  rw [BitVec.toNat_and, bits32 (by omega), show ((pat v (2 * i) : Int) + 65536 * pat v (2 * i + 1)).toNat =
    2 ^ 16 * pat v (2 * i + 1) + pat v (2 * i) by omega]
  apply Nat.eq_of_testBit_eq
  intro k
  rw [Nat.testBit_and, Nat.testBit_shiftLeft, Nat.testBit_two_pow_mul_add _ b1]
  have hmask : (bitsOf u32 4294901760).toNat.testBit k = (decide (16 ≤ k) && decide (k < 32)) := by
    rw [show (bitsOf u32 4294901760).toNat = 2 ^ 16 * 65535 + 0 by decide, Nat.testBit_two_pow_mul_add _ (by decide),
      show (65535 : Nat) = 2 ^ 16 - 1 by decide, Nat.testBit_two_pow_sub_one]
    by_cases h : k < 16
    · simp [h]
    · simp [h, show 16 ≤ k by omega]; omega
  rw [hmask]
  by_cases h : k < 16
  · simp [h, show ¬ 16 ≤ k by omega]
  · simp only [h, if_false, show 16 ≤ k by omega, decide_true, Bool.true_and, ge_iff_le]
    by_cases h' : k < 32
    · simp [h']
    · have : (pat v (2 * i + 1)).testBit (k - 16) = false := by
        apply Nat.testBit_lt_two_pow
        calc _ < 2 ^ 16 := b2
          _ ≤ _ := Nat.pow_le_pow_right (by decide) (by omega)
      simp [h', this]

/-- **`ReorderDemote2To` `float` to `bfloat16_t`**: lanes `2i` and `2i + 1` are the upper halves of `b[i]` and `a[i]`. -/
theorem C49_reorder_demote2_bf16 {N : Nat} (hN : N ≤ 4) {a b : List Int} (ha : Reg u32 a) (hb : Reg u32 b) :
    ∃ r, ReorderDemote2BF16 N a b = .ok r ∧ Reg u16 r ∧ ∀ i, i < N →
      pat r (2 * i) = pat b i / 2 ^ 16 ∧ pat r (2 * i + 1) = pat a i / 2 ^ 16 := by
  obtain ⟨s, es, hs, ls⟩ := C38_shift_right true (t := u32) (by decide) (N := N) hN hb (k := 16) (by decide)
  obtain ⟨m, em, hm, lm⟩ := C38_set (t := u32) (by decide) (N := N) hN (x := 0xFFFF0000) (by decide)
  obtain ⟨w, ew, hw, lw⟩ := C38_if_vec_then_else (t := u32) (by decide) (N := N) hN hm ha hs
  unfold ReorderDemote2BF16
  have es' : ShiftRight true u32 N 16 b = .ok s := es
  rw [es', ok_bind', em, ok_bind', ew, ok_bind']
  refine ⟨_, rfl, bitcast_reg (by decide) w, fun i hi => ?_⟩
  have h1 := ls i hi
  beta_reduce at h1
  have hbl : (0:Int) ≤ lane b i ∧ lane b i ≤ 4294967295 := hb.lane_has (i := i) (by show i < 4; omega)
  have hal : (0:Int) ≤ lane a i ∧ lane a i ≤ 4294967295 := ha.lane_has (i := i) (by show i < 4; omega)
  have hwl : (0:Int) ≤ lane w i ∧ lane w i ≤ 4294967295 := hw.lane_has (i := i) (by show i < 4; omega)
  have hmask : ∀ k, k < 32 → (bitsOf u32 0xFFFF0000).getLsbD k = decide (16 ≤ k) := by decide
  have key : (lane w i).toNat = 2 ^ 16 * ((lane a i).toNat / 2 ^ 16) + (lane b i).toNat / 2 ^ 16 := by
    apply Nat.eq_of_testBit_eq
    intro k
    rw [Nat.testBit_two_pow_mul_add _ (by omega)]
    by_cases hk : k < 32
    · have h2 := lw i hi k hk
      rw [lm i hi, hmask k hk, h1, ← BitVec.testBit_toNat, ← BitVec.testBit_toNat, ← BitVec.testBit_toNat, bits32 hwl,
        bits32 hal, bits32 (x := lane b i / 2 ^ 16) (by omega)] at h2
      rw [h2]
      by_cases h : k < 16
      · rw [if_neg (by simpa using h), if_pos h]
        congr 1; omega
      · rw [if_pos (by simpa using h), if_neg h, Nat.testBit_div_two_pow]
        congr 1; omega
    · rw [if_neg (by omega), Nat.testBit_lt_two_pow, Nat.testBit_lt_two_pow]
      · calc _ < 2 ^ 16 := by omega
          _ ≤ _ := Nat.pow_le_pow_right (by decide) (by omega)
      · calc _ < 2 ^ 32 := by omega
          _ ≤ _ := Nat.pow_le_pow_right (by decide) (by omega)
  have hbc := bitcast_narrow (tF := u32) (tT := u16) rfl (v := w) (j := i) (show 2 * i + 1 < 8 by omega)
    (by rw [hw.len]; show i < 4; omega)
  have r1 : (0:Int) ≤ lane (BitCast u32 u16 w) (2 * i) ∧ lane (BitCast u32 u16 w) (2 * i) ≤ 65535 :=
    (bitcast_reg (tF := u32) (tT := u16) (by decide) w).lane_has (by show 2 * i < 8; omega)
  have r2 : (0:Int) ≤ lane (BitCast u32 u16 w) (2 * i + 1) ∧ lane (BitCast u32 u16 w) (2 * i + 1) ≤ 65535 :=
    (bitcast_reg (tF := u32) (tT := u16) (by decide) w).lane_has (by show 2 * i + 1 < 8; omega)
  have h3 : lane (BitCast u32 u16 w) (2 * i) % 65536 = lane w i % 65536 := hbc.1
  have h4 : lane (BitCast u32 u16 w) (2 * i + 1) % 65536 = lane w i / 65536 % 65536 := hbc.2
  unfold pat
  omega

/-- **Finding.** `ReorderDemote2To` to `bfloat16_t` truncates, so a NaN whose payload is in the low half becomes
infinity, while `DemoteTo` keeps it a NaN. -/
theorem C49_finding_reorder_demote2_nan {N : Nat} (hN : N ≤ 4) {a b : List Int} (ha : Reg u32 a) (hb : Reg u32 b)
    {i : Nat} (hi : i < N) (hx : pat a i = 0x7F800001) :
    f32.nan (pat a i) = true ∧ ∃ r, ReorderDemote2BF16 N a b = .ok r ∧ pat r (2 * i + 1) = bf16.inf ∧
      bf16.nan (bf16FromF32 (pat a i)) = true := by
  obtain ⟨r, e, -, hl⟩ := C49_reorder_demote2_bf16 hN ha hb
  refine ⟨by rw [hx]; decide, r, e, ?_, by rw [hx]; decide⟩
  rw [(hl i hi).2, hx]; decide

end Emu
end Hwy
