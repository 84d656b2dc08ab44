import Verif.GenArithSpec2

/-!
# C39: pairwise operations, masked operations, masked reductions and mask conversions
-/

namespace Hwy
namespace Emu
open CInt Finset

set_option linter.unusedSectionVars false

section moves
variable {t : Ty} (h : t ∈ laneTys) {N : Nat} (hN : N ≤ cap t) {a b : List Int} {F G : Nat → Int}
  (ha : Is t N a F) (hb : Is t N b G)
include h hN ha hb

/-- Odd lanes of `a`, even lanes of `b`. -/
theorem xoddeven : Runs t N (OddEven N a b) (fun i => if i % 2 = 1 then F i else G i) := by
  have hc : ∀ t ∈ laneTys, cap t % 2 = 0 := by decide
  have := hc t h
  refine (C47_odd_even (α := Int) (c := cap t) (by omega) ha.1.len hb.1.len).runs
    (fun r e => forN_all (fun _ _ _ e h => move_all e hb.1.has h) e ha.1.has) (fun i hi => ?_)
  split_ifs
  · exact ha.some hN hi
  · exact hb.some hN hi

theorem xileven : Runs t N (InterleaveEven N a b) (fun i => if i % 2 = 0 then F i else G (i - 1)) := by
  refine (C47_interleave_even (α := Int) (c := cap t) hN ha.1.len hb.1.len).runs
    (fun r e => forN_all (fun _ _ _ e h => move_all e hb.1.has h) e ha.1.has) (fun i hi => ?_)
  split_ifs
  · exact ha.some hN hi
  · exact hb.some hN (by omega)

theorem xilodd (h2 : N % 2 = 0) : Runs t N (InterleaveOdd N a b) (fun i => if i % 2 = 0 then F (i + 1) else G i) := by
  refine (C47_interleave_odd (α := Int) (c := cap t) hN h2 ha.1.len hb.1.len).runs
    (fun r e => forN_all (fun _ _ _ e h => move_all e ha.1.has h) e hb.1.has) (fun i hi => ?_)
  split_ifs
  · exact ha.some hN (by omega)
  · exact hb.some hN hi

end moves

section
variable {t : Ty} (h : t ∈ laneTys) {N : Nat} (hN : N ≤ cap t)
include h hN

/-- `AddSub`: difference in even lanes, sum in odd lanes. -/
theorem C39_add_sub {a b : List Int} (ha : Reg t a) (hb : Reg t b) :
    Lanes t N (AddSub t N a b) (fun i r =>
      (i % 2 = 0 → r ≡ lane a i - lane b i [ZMOD 2 ^ t.bits]) ∧
      (i % 2 = 1 → r ≡ lane a i + lane b i [ZMOD 2 ^ t.bits])) := by
  unfold AddSub
  split_ifs with h1
  · refine (C38_sub h hN ha hb).mono fun i x hi e => ⟨fun _ => e, fun ho => by omega⟩
  · obtain ⟨hsm, hsb, hss, hsc⟩ := signed_facts h
    have hb1 : Is t.signed N (BitCast t t.signed b) (fun i => t.signed.wrap (lane b i)) := is_bc_same (Is.refl hb) hsm hsb hN
    refine Runs.lanes (Runs.bind (xneg hsm (by omega) hb1) fun n hn =>
      Runs.bind (xoddeven h hN (Is.refl hb) (is_bc_same hn h hsb.symm (by omega))) fun o ho => xadd h hN (Is.refl ha) ho) hN fun i hi _ => ?_
    beta_reduce
    have key : t.wrap (t.signed.wrap (- t.signed.wrap (lane b i))) ≡ - lane b i [ZMOD 2 ^ t.bits] := by
      refine (modEq_wrap t _).trans ?_
      rw [← hsb]
      exact (modEq_wrap t.signed _).trans (modEq_wrap t.signed _).neg
    refine ⟨fun he => ?_, fun ho => ?_⟩
    · rw [if_neg (by omega)]
      refine (modEq_wrap t _).trans ?_
      rw [sub_eq_add_neg]
      exact Int.ModEq.add_left _ key
    · rw [if_pos ho]
      exact modEq_wrap t _

/-- `PairwiseAdd`: sums of adjacent lanes, from `a` in even lanes and from `b` in odd ones. -/
theorem C39_pairwise_add (h2 : N % 2 = 0) {a b : List Int} (ha : Reg t a) (hb : Reg t b) :
    Lanes t N (PairwiseAdd t N a b) (fun i r =>
      (i % 2 = 0 → r ≡ lane a i + lane a (i + 1) [ZMOD 2 ^ t.bits]) ∧
      (i % 2 = 1 → r ≡ lane b (i - 1) + lane b i [ZMOD 2 ^ t.bits])) := by
  refine Runs.lanes (Runs.bind (xileven h hN (Is.refl ha) (Is.refl hb)) fun e he =>
    Runs.bind (xilodd h hN (Is.refl ha) (Is.refl hb) h2) fun o ho => xadd h hN he ho) hN fun i hi _ => ⟨fun c => ?_, fun c => ?_⟩
  · beta_reduce; rw [if_pos c, if_pos c]; exact modEq_wrap t _
  · beta_reduce; rw [if_neg (by omega), if_neg (by omega)]; exact modEq_wrap t _

/-- `PairwiseSub`: the odd lane minus the even lane of each pair. -/
theorem C39_pairwise_sub (h2 : N % 2 = 0) {a b : List Int} (ha : Reg t a) (hb : Reg t b) :
    Lanes t N (PairwiseSub t N a b) (fun i r =>
      (i % 2 = 0 → r ≡ lane a (i + 1) - lane a i [ZMOD 2 ^ t.bits]) ∧
      (i % 2 = 1 → r ≡ lane b i - lane b (i - 1) [ZMOD 2 ^ t.bits])) := by
  refine Runs.lanes (Runs.bind (xilodd h hN (Is.refl ha) (Is.refl hb) h2) fun o ho =>
    Runs.bind (xileven h hN (Is.refl ha) (Is.refl hb)) fun e he => xsub h hN ho he) hN fun i hi _ => ⟨fun c => ?_, fun c => ?_⟩
  · beta_reduce; rw [if_pos c, if_pos c]; exact modEq_wrap t _
  · beta_reduce; rw [if_neg (by omega), if_neg (by omega)]; exact modEq_wrap t _

end

/-- `SumsOf8AbsDiff`: per block of eight lanes, the sum of the absolute differences (unsigned and signed bytes). -/
theorem C39_sums_of_8_abs_diff {t : Ty} (ht : t = u8 ∨ t = i8) {N : Nat} (hN : N ≤ 16) {a b : List Int}
    (ha : Reg t a) (hb : Reg t b) :
    Lanes ⟨64, t.sgn⟩ ((N + 7) / 8) (SumsOf8AbsDiff t N a b)
      (fun j r => r = ∑ i ∈ (range N).filter (fun i => i / 8 = j), |lane a i - lane b i|) := by
  have h : t ∈ laneTys := by rcases ht with rfl | rfl <;> decide
  have hc : cap t = 16 := by rcases ht with rfl | rfl <;> decide
  have h64 : (⟨64, t.sgn⟩ : Ty) ∈ laneTys := by rcases ht with rfl | rfl <;> decide
  have hb8 : u8.bits = t.bits := by rcases ht with rfl | rfl <;> decide
  unfold SumsOf8AbsDiff
  obtain ⟨d, ed, hd⟩ := run_abs_diff h (show N ≤ cap t by omega) (Is.refl ha) (Is.refl hb)
  rw [ed, ok_bind']
  have hd8 : Is u8 N (BitCast t u8 d) (fun i => u8.wrap (t.wrap |lane a i - lane b i|)) :=
    is_bc_same hd (by decide) hb8 hN
  have hv : ∀ i, i < N → u8.wrap (t.wrap |lane a i - lane b i|) = |lane a i - lane b i| := by
    intro i hi
    have fa := ha.lane_has (i := i) (by omega)
    have fb := hb.lane_has (i := i) (by omega)
    have e1 : u8.wrap (t.wrap |lane a i - lane b i|) = u8.wrap |lane a i - lane b i| := by
      apply wrap_congr
      have := modEq_wrap t |lane a i - lane b i|
      rw [← hb8] at this
      exact this
    rw [e1]
    refine wrap_has' (by decide) (show (0 : Int) ≤ _ ∧ _ ≤ 255 from ⟨abs_nonneg _, ?_⟩)
    rw [abs_le]
    rcases ht with rfl | rfl
    · have f1 : (0 : Int) ≤ _ ∧ _ ≤ (255 : Int) := fa
      have f2 : (0 : Int) ≤ _ ∧ _ ≤ (255 : Int) := fb
      omega
    · have f1 : (-128 : Int) ≤ _ ∧ _ ≤ (127 : Int) := fa
      have f2 : (-128 : Int) ≤ _ ∧ _ ≤ (127 : Int) := fb
      omega
  obtain ⟨s, es, hs, hl⟩ := C38_sums_of_8 (t := u8) (Or.inl rfl) hN hd8.1
  rw [es, ok_bind']
  have hs' : Is u64 ((N + 7) / 8) s (fun j => ∑ i ∈ (range N).filter (fun i => i / 8 = j), |lane a i - lane b i|) := by
    refine ⟨hs, fun j hj => ?_⟩
    rw [hl j hj]
    refine sum_congr rfl fun i hi => ?_
    have : i < N := by simpa using (mem_filter.1 hi).1
    rw [hd8.2 i this]
    exact hv i this
  have h2 : cap u64 = 2 := by decide
  have hcap : cap ⟨64, t.sgn⟩ = 2 := by rcases ht with rfl | rfl <;> decide
  have hr := is_bc_same hs' h64 rfl (show (N + 7) / 8 ≤ cap u64 by omega)
  refine Runs.lanes (Runs.ret hr) (by omega) fun j hj _ => ?_
  beta_reduce
  refine wrap_has' h64 ?_
  have hle : (∑ i ∈ (range N).filter (fun i => i / 8 = j), |lane a i - lane b i|) ≤ 16 * 255 := by
    calc _ ≤ ∑ i ∈ (range N).filter (fun i => i / 8 = j), (255 : Int) := by
          refine sum_le_sum fun i hi => ?_
          have hi' : i < N := by simpa using (mem_filter.1 hi).1
          rw [← hv i hi']
          have := hd8.has (show N ≤ cap u8 from hN) hi'
          exact this.2
      _ = (((range N).filter (fun i => i / 8 = j)).card : Int) * 255 := by rw [sum_const, nsmul_eq_mul]
      _ ≤ 16 * 255 := by
          have := card_filter_le (range N) (fun i => i / 8 = j)
          rw [card_range] at this
          have : (((range N).filter (fun i => i / 8 = j)).card : Int) ≤ 16 := by exact_mod_cast this.trans hN
          omega
  have hge : 0 ≤ ∑ i ∈ (range N).filter (fun i => i / 8 = j), |lane a i - lane b i| := sum_nonneg fun _ _ => abs_nonneg _
  generalize (∑ i ∈ (range N).filter (fun i => i / 8 = j), |lane a i - lane b i|) = z at *
  rcases ht with rfl | rfl
  · exact (show (0 : Int) ≤ z ∧ z ≤ 18446744073709551615 by omega)
  · exact (show (-9223372036854775808 : Int) ≤ z ∧ z ≤ 9223372036854775807 by omega)

end Emu
end Hwy
