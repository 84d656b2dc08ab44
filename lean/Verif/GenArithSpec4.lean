import Verif.GenArithSpec3

/-!
# C39: masked operations, masked reductions and mask conversions
-/

namespace Hwy
namespace Emu
open CInt Finset

set_option linter.unusedSectionVars false

/-- What a masked operation yields: `P` in lanes whose mask is true, the lane of `no` elsewhere. -/
def Sel (p : Nat → Bool) (no : List Int) (P : Nat → Int → Prop) (i : Nat) (x : Int) : Prop :=
  (p i = true → P i x) ∧ (p i = false → x = lane no i)
/-- The same with zero elsewhere. -/
def SelZ (p : Nat → Bool) (P : Nat → Int → Prop) (i : Nat) (x : Int) : Prop :=
  (p i = true → P i x) ∧ (p i = false → x = 0)

section
variable {t : Ty} (h : t ∈ laneTys) {N : Nat} (hN : N ≤ cap t) {m : List Int} {p : Nat → Bool} (hm : IsMask t N m p)
include h hN hm

theorem masked_or {no : List Int} (hno : Reg t no) {r : M (List Int)} {P : Nat → Int → Prop} (hr : Lanes t N r P) :
    Lanes t N (r >>= fun v => IfThenElse t N m v no) (Sel p no P) :=
  hr.bind fun v hv hl => (C38_if_then_else h hN hm hv hno).mono fun i x hi e => by
    refine ⟨fun c => ?_, fun c => ?_⟩
    · rw [e, if_pos c]; exact hl i hi
    · rw [e, if_neg (by simp [c])]

theorem masked_zero {r : M (List Int)} {P : Nat → Int → Prop} (hr : Lanes t N r P) :
    Lanes t N (r >>= fun v => IfThenElseZero t N m v) (SelZ p P) :=
  hr.bind fun v hv hl => (C38_if_then_else_zero h hN hm hv).mono fun i x hi e => by
    refine ⟨fun c => ?_, fun c => ?_⟩
    · rw [e, if_pos c]; exact hl i hi
    · rw [e, if_neg (by simp [c])]

/-- The `Masked*Or` operations: the operation where the mask is true, `no` elsewhere. -/
theorem C39_masked_or (ar : Bool) {no a b : List Int} (hno : Reg t no) (ha : Reg t a) (hb : Reg t b) :
    Lanes t N (MaskedMinOr t N no m a b) (Sel p no fun i x => x = min (lane a i) (lane b i)) ∧
    Lanes t N (MaskedMaxOr t N no m a b) (Sel p no fun i x => x = max (lane a i) (lane b i)) ∧
    Lanes t N (MaskedAddOr t N no m a b) (Sel p no fun i x => x ≡ lane a i + lane b i [ZMOD 2 ^ t.bits]) ∧
    Lanes t N (MaskedSubOr t N no m a b) (Sel p no fun i x => x ≡ lane a i - lane b i [ZMOD 2 ^ t.bits]) ∧
    Lanes t N (MaskedMulOr t N no m a b) (Sel p no fun i x => x ≡ lane a i * lane b i [ZMOD 2 ^ t.bits]) ∧
    Lanes t N (MaskedSatAddOr ar t N no m a b) (Sel p no fun i x => x = clamp t (lane a i + lane b i)) ∧
    Lanes t N (MaskedSatSubOr ar t N no m a b) (Sel p no fun i x => x = clamp t (lane a i - lane b i)) ∧
    Lanes t N (MaskedAbsOr t N no m a) (Sel p no fun i x => x ≡ |lane a i| [ZMOD 2 ^ t.bits] ∧
      (lane a i ≠ t.lo → x = |lane a i|)) :=
  ⟨masked_or h hN hm hno (C38_min h hN ha hb), masked_or h hN hm hno (C38_max h hN ha hb),
   masked_or h hN hm hno (C38_add h hN ha hb), masked_or h hN hm hno (C38_sub h hN ha hb),
   masked_or h hN hm hno (C38_mul h hN ha hb), masked_or h hN hm hno (C39_saturated_add h hN ar ha hb),
   masked_or h hN hm hno (C39_saturated_sub h hN ar ha hb), masked_or h hN hm hno (C38_abs h hN ha)⟩

/-- `MaskedDivOr`, `MaskedModOr`, `MaskedDiv`: only the divisors of selected lanes matter. -/
theorem C39_masked_div (hV : VecLanes t N) {no a b : List Int} (hno : Reg t no) (ha : Reg t a) (hb : Reg t b) :
    Lanes t N (MaskedDivOr t N no m a b) (Sel p no fun i x => lane b i ≠ 0 →
      ¬ (t.sgn = true ∧ lane a i = t.lo ∧ lane b i = -1) → x = (lane a i).tdiv (lane b i)) ∧
    Lanes t N (MaskedModOr t N no m a b) (Sel p no fun i x => lane b i ≠ 0 →
      ¬ (t.sgn = true ∧ lane a i = t.lo ∧ lane b i = -1) → x = (lane a i).tmod (lane b i)) ∧
    Lanes t N (MaskedDiv t N m a b) (SelZ p fun i x => lane b i ≠ 0 →
      ¬ (t.sgn = true ∧ lane a i = t.lo ∧ lane b i = -1) → x = (lane a i).tdiv (lane b i)) :=
  ⟨masked_or h hN hm hno (C53_div h hV ha hb), masked_or h hN hm hno (C53_mod h hV ha hb),
   masked_zero h hN hm (C53_div h hV ha hb)⟩

/-- Masked shifts. -/
theorem C39_masked_shift (ar : Bool) {no a s : List Int} (hno : Reg t no) (ha : Reg t a) (hs : Reg t s) {k : Nat}
    (hk : k < t.bits) (hsk : ∀ i, i < N → 0 ≤ lane s i ∧ lane s i < t.bits) :
    Lanes t N (MaskedShiftLeft t N k m a) (SelZ p fun i x => x ≡ lane a i * 2 ^ k [ZMOD 2 ^ t.bits]) ∧
    Lanes t N (MaskedShiftRight ar t N k m a) (SelZ p fun i x => x = lane a i / 2 ^ k) ∧
    Lanes t N (MaskedShiftRightOr ar t N k no m a) (Sel p no fun i x => x = lane a i / 2 ^ k) ∧
    Lanes t N (MaskedShrOr ar t N no m a s) (Sel p no fun i x => x = lane a i / 2 ^ (lane s i).toNat) :=
  ⟨masked_zero h hN hm (C38_shift_left h hN ha hk), masked_zero h hN hm (C38_shift_right ar h hN ha hk),
   masked_or h hN hm hno (C38_shift_right ar h hN ha hk), masked_or h hN hm hno (C38_shr ar h hN ha hs hsk)⟩

/-- The `Masked*` operations: the operation where the mask is true, zero elsewhere. -/
theorem C39_masked_zero (ar : Bool) {a b c : List Int} (ha : Reg t a) (hb : Reg t b) (hc : Reg t c) :
    Lanes t N (MaskedMax t N m a b) (SelZ p fun i x => x = max (lane a i) (lane b i)) ∧
    Lanes t N (MaskedAdd t N m a b) (SelZ p fun i x => x ≡ lane a i + lane b i [ZMOD 2 ^ t.bits]) ∧
    Lanes t N (MaskedSub t N m a b) (SelZ p fun i x => x ≡ lane a i - lane b i [ZMOD 2 ^ t.bits]) ∧
    Lanes t N (MaskedMul t N m a b) (SelZ p fun i x => x ≡ lane a i * lane b i [ZMOD 2 ^ t.bits]) ∧
    Lanes t N (MaskedSaturatedAdd ar t N m a b) (SelZ p fun i x => x = clamp t (lane a i + lane b i)) ∧
    Lanes t N (MaskedSaturatedSub ar t N m a b) (SelZ p fun i x => x = clamp t (lane a i - lane b i)) ∧
    Lanes t N (MaskedAbs t N m a) (SelZ p fun i x => x ≡ |lane a i| [ZMOD 2 ^ t.bits] ∧
      (lane a i ≠ t.lo → x = |lane a i|)) ∧
    Lanes t N (MaskedMulAdd t N m a b c) (SelZ p fun i x => x ≡ lane a i * lane b i + lane c i [ZMOD 2 ^ t.bits]) ∧
    Lanes t N (MaskedNegMulAdd t N m a b c) (SelZ p fun i x => x ≡ lane c i - lane a i * lane b i [ZMOD 2 ^ t.bits]) := by
  refine ⟨masked_zero h hN hm (C38_max h hN ha hb), masked_zero h hN hm (C38_add h hN ha hb),
    masked_zero h hN hm (C38_sub h hN ha hb), masked_zero h hN hm (C38_mul h hN ha hb),
    masked_zero h hN hm (C39_saturated_add h hN ar ha hb), masked_zero h hN hm (C39_saturated_sub h hN ar ha hb),
    masked_zero h hN hm (C38_abs h hN ha), masked_zero h hN hm ?_, masked_zero h hN hm ?_⟩
  · refine Runs.lanes (Runs.bind (xmul h hN (Is.refl ha) (Is.refl hb)) fun q hq => xadd h hN hq (Is.refl hc)) hN fun i _ _ => ?_
    exact (modEq_wrap t _).trans ((modEq_wrap t _).add_right _)
  · refine Runs.lanes (Runs.bind (xmul h hN (Is.refl ha) (Is.refl hb)) fun q hq => xsub h hN (Is.refl hc) hq) hN fun i _ _ => ?_
    exact (modEq_wrap t _).trans ((modEq_wrap t _).sub_left _)

/-- Masked comparisons: true where the mask is true and the comparison holds. -/
theorem C39_masked_compare {a b : List Int} (ha : Reg t a) (hb : Reg t b) :
    (∃ r, MaskedEq t N m a b = .ok r ∧ IsMask t N r (fun i => p i && decide (lane a i = lane b i))) ∧
    (∃ r, MaskedNe t N m a b = .ok r ∧ IsMask t N r (fun i => p i && decide (lane a i ≠ lane b i))) ∧
    (∃ r, MaskedLt t N m a b = .ok r ∧ IsMask t N r (fun i => p i && decide (lane a i < lane b i))) ∧
    (∃ r, MaskedGt t N m a b = .ok r ∧ IsMask t N r (fun i => p i && decide (lane a i > lane b i))) ∧
    (∃ r, MaskedLe t N m a b = .ok r ∧ IsMask t N r (fun i => p i && decide (lane a i ≤ lane b i))) ∧
    (∃ r, MaskedGe t N m a b = .ok r ∧ IsMask t N r (fun i => p i && decide (lane a i ≥ lane b i))) := by
  obtain ⟨c1, c2, c3, c4, c5, c6⟩ := C38_compare h hN ha hb
  exact ⟨RunsM.bindM c1 fun _ hx => xmand h hN hm hx, RunsM.bindM c2 fun _ hx => xmand h hN hm hx,
    RunsM.bindM c3 fun _ hx => xmand h hN hm hx, RunsM.bindM c4 fun _ hx => xmand h hN hm hx,
    RunsM.bindM c5 fun _ hx => xmand h hN hm hx, RunsM.bindM c6 fun _ hx => xmand h hN hm hx⟩

end

/-- `MaskedMulFixedPoint15`. -/
theorem C39_masked_mul_fixed_point15 {N : Nat} (hN : N ≤ 8) {m : List Int} {p : Nat → Bool} (hm : IsMask i16 N m p)
    {a b : List Int} (ha : Reg i16 a) (hb : Reg i16 b) :
    Lanes i16 N (MaskedMulFixedPoint15 N m a b) (SelZ p fun i x =>
      (¬ (lane a i = -32768 ∧ lane b i = -32768) → x = (lane a i * lane b i + 16384) / 32768) ∧
      (lane a i = -32768 ∧ lane b i = -32768 → x = -32768)) :=
  masked_zero (by decide) hN hm (C38_mul_fixed_point15 hN ha hb)

/-- `MaskedWidenMulPairwiseAdd`; the mask has the lanes of the result. -/
theorem C39_masked_widen_mul_pairwise_add {tF : Ty} (hF : tF ∈ halfTys) {N : Nat} (hN : N ≤ cap tF.wide) (ar : Bool)
    {m : List Int} {p : Nat → Bool} (hm : IsMask tF.wide N m p) {a b : List Int} (ha : Reg tF a) (hb : Reg tF b) :
    Lanes tF.wide N (MaskedWidenMulPairwiseAdd ar tF N m a b) (SelZ p fun i r =>
      r ≡ lane a (2 * i) * lane b (2 * i) + lane a (2 * i + 1) * lane b (2 * i + 1) [ZMOD 2 ^ tF.wide.bits]) :=
  masked_zero (half_lane hF hN).2 hN hm (C49_widen_mul_pairwise_add hF hN ar ha hb)

end Emu
end Hwy
