import Verif.GenFloatSpec2

/-!
# C57, continued: magnitudes, conditional negation, alternating sums
-/

namespace Hwy
namespace Emu
open CInt Flt

section
variable {F : Fmt} (hF : F = f32 ∨ F = f64) {N : Nat} (hN : N ≤ cap F.ut)
include hF

theorem minLane_lt {x y : Nat} (hx : x < 2 ^ (F.w + 1)) (hy : y < 2 ^ (F.w + 1)) : minLane F x y < 2 ^ (F.w + 1) := by
  unfold minLane hwyMin; split_ifs <;> assumption
theorem maxLane_lt {x y : Nat} (hx : x < 2 ^ (F.w + 1)) (hy : y < 2 ^ (F.w + 1)) : maxLane F x y < 2 ^ (F.w + 1) := by
  unfold maxLane hwyMax; split_ifs <;> assumption

include hN

/-- **Specification.** `|a| < |b|`, or equal magnitudes and `a < b` (extended reals). -/
def MagLt (F : Fmt) (a b : Nat) : Prop :=
  extOf F (F.mag a) < extOf F (F.mag b) ∨ extOf F (F.mag a) = extOf F (F.mag b) ∧ extOf F a < extOf F b

theorem C57_min_magnitude {a b : List Int} (ha : Reg F.ut a) (hb : Reg F.ut b) :
    Lanes F.ut N (FMinMagnitude F N a b) (fun i r => F.nan (pat a i) = false → F.nan (pat b i) = false →
      (MagLt F (pat a i) (pat b i) → r.toNat = pat a i) ∧ (¬ MagLt F (pat a i) (pat b i) → r.toNat = pat b i)) := by
  have S := std_of hF
  have ia := is_pat hF hN ha
  have ib := is_pat hF hN hb
  have run : Runs F.ut N (FMinMagnitude F N a b) (fun i => ((if flt F (F.mag (pat a i)) (F.mag (pat b i)) then pat a i
      else minLane F (if feq F (F.mag (pat a i)) (F.mag (pat b i)) then pat a i else pat b i) (pat b i) : Nat) : Int)) := by
    unfold FMinMagnitude
    refine Runs.bind (run_fabs hF hN ia) fun va hva => ?_
    refine Runs.bind (run_fabs hF hN ib) fun vb hvb => ?_
    refine RunsM.bind (run_fmask2 hF hN (feq F) hva hvb) fun m hm => ?_
    refine Runs.bind (Runs.congr (xite (ut_lane hF) hN hm ia ib)
      (G := fun i => ((if feq F (F.mag (pat a i)) (F.mag (pat b i)) then pat a i else pat b i : Nat) : Int))
      fun i hi => by beta_reduce; split_ifs <;> rfl) fun s hs => ?_
    refine Runs.bind (run_fmap2 hF hN (f := minLane F) (fun x y hx hy => minLane_lt hF hx hy) hs ib) fun mn hmn => ?_
    refine RunsM.bind (run_fmask2 hF hN (flt F) hva hvb) fun l hl => ?_
    exact Runs.congr (xite (ut_lane hF) hN hl ia hmn) fun i hi => by beta_reduce; split_ifs <;> rfl
  refine run.lanes hN fun i hi _ n1 n2 => ?_
  rw [Int.toNat_natCast]
  have m1 : F.nan (F.mag (pat a i)) = false := by unfold Fmt.nan at *; rwa [mag_of_lt (mag_lt _)]
  have m2 : F.nan (F.mag (pat b i)) = false := by unfold Fmt.nan at *; rwa [mag_of_lt (mag_lt _)]
  have hl := flt_ext hF (F.mag (pat a i)) (F.mag (pat b i))
  have he := feq_ext hF (F.mag (pat a i)) (F.mag (pat b i))
  have hab := flt_ext hF (pat a i) (pat b i)
  simp only [m1, m2, n1, n2, true_and] at hl he hab
  unfold MagLt
  rw [← hl, ← he, ← hab]
  unfold minLane hwyMin
  rw [scalarIsNaN_eq S, scalarIsNaN_eq S]
  cases h1 : flt F (F.mag (pat a i)) (F.mag (pat b i)) <;> cases h2 : feq F (F.mag (pat a i)) (F.mag (pat b i)) <;>
    cases h3 : flt F (pat a i) (pat b i) <;> simp [n1, n2, h3]

theorem C57_max_magnitude {a b : List Int} (ha : Reg F.ut a) (hb : Reg F.ut b) :
    Lanes F.ut N (FMaxMagnitude F N a b) (fun i r => F.nan (pat a i) = false → F.nan (pat b i) = false →
      (MagLt F (pat a i) (pat b i) → r.toNat = pat b i) ∧ (¬ MagLt F (pat a i) (pat b i) → r.toNat = pat a i)) := by
  have S := std_of hF
  have ia := is_pat hF hN ha
  have ib := is_pat hF hN hb
  have run : Runs F.ut N (FMaxMagnitude F N a b) (fun i => ((if flt F (F.mag (pat a i)) (F.mag (pat b i)) then pat b i
      else maxLane F (if feq F (F.mag (pat a i)) (F.mag (pat b i)) then pat b i else pat a i) (pat a i) : Nat) : Int)) := by
    unfold FMaxMagnitude
    refine Runs.bind (run_fabs hF hN ia) fun va hva => ?_
    refine Runs.bind (run_fabs hF hN ib) fun vb hvb => ?_
    refine RunsM.bind (run_fmask2 hF hN (feq F) hva hvb) fun m hm => ?_
    refine Runs.bind (Runs.congr (xite (ut_lane hF) hN hm ib ia)
      (G := fun i => ((if feq F (F.mag (pat a i)) (F.mag (pat b i)) then pat b i else pat a i : Nat) : Int))
      fun i hi => by beta_reduce; split_ifs <;> rfl) fun s hs => ?_
    refine Runs.bind (run_fmap2 hF hN (f := maxLane F) (fun x y hx hy => maxLane_lt hF hx hy) hs ia) fun mn hmn => ?_
    refine RunsM.bind (run_fmask2 hF hN (flt F) hva hvb) fun l hl => ?_
    exact Runs.congr (xite (ut_lane hF) hN hl ib hmn) fun i hi => by beta_reduce; split_ifs <;> rfl
  refine run.lanes hN fun i hi _ n1 n2 => ?_
  rw [Int.toNat_natCast]
  have m1 : F.nan (F.mag (pat a i)) = false := by unfold Fmt.nan at *; rwa [mag_of_lt (mag_lt _)]
  have m2 : F.nan (F.mag (pat b i)) = false := by unfold Fmt.nan at *; rwa [mag_of_lt (mag_lt _)]
  have hl := flt_ext hF (F.mag (pat a i)) (F.mag (pat b i))
  have he := feq_ext hF (F.mag (pat a i)) (F.mag (pat b i))
  have hab := flt_ext hF (pat a i) (pat b i)
  simp only [m1, m2, n1, n2, true_and] at hl he hab
  unfold MagLt
  rw [← hl, ← he, ← hab]
  unfold maxLane hwyMax
  rw [scalarIsNaN_eq S, scalarIsNaN_eq S]
  cases h1 : flt F (F.mag (pat a i)) (F.mag (pat b i)) <;> cases h2 : feq F (F.mag (pat a i)) (F.mag (pat b i)) <;>
    cases h3 : flt F (pat a i) (pat b i) <;> simp [n1, n2, h3]

/-- `IfNegativeThenNegOrUndefIfZero(mask, v)` of floats: flips the sign of `v` where the sign bit of `mask` is set. -/
theorem C57_if_negative_then_neg {m v : List Int} (hm : Reg F.ut m) (hv : Reg F.ut v) :
    Lanes F.ut N (FIfNegativeThenNegOrUndefIfZero F N m v) (fun i r =>
      F.neg r.toNat = (if F.neg (pat m i) then !F.neg (pat v i) else F.neg (pat v i)) ∧ F.mag r.toNat = F.mag (pat v i)) := by
  unfold FIfNegativeThenNegOrUndefIfZero
  refine (C38_xor (fut_mem hF) hN hm hv).bind fun x hx hl => (C48_copy_sign hF hN hv hx).mono fun i r hi h => ?_
  refine ⟨?_, h.2⟩
  rw [h.1, neg_testBit (pat_lt hF hN hx hi).1, neg_testBit (pat_lt hF hN hm hi).1, neg_testBit (pat_lt hF hN hv hi).1]
  have e : pat x i = pat m i ^^^ pat v i := by
    unfold pat
    rw [← bitsOf_toNat hF (hx.lane_has (by omega)), hl i hi, BitVec.toNat_xor, bitsOf_toNat hF (hm.lane_has (by omega)),
      bitsOf_toNat hF (hv.lane_has (by omega))]
  rw [e, Nat.testBit_xor]
  cases (pat m i).testBit F.w <;> cases (pat v i).testBit F.w <;> rfl

/-! ### Alternating sums -/

omit hN hF in
theorem fneg_fneg {x : Nat} (hx : x < 2 ^ (F.w + 1)) : fneg F (fneg F x) = x := by
  unfold fneg
  rw [neg_pack (mag_lt x), mag_pack (mag_lt x), Bool.not_not]
  exact pack_eta hx

/-- **Specification.** `x + y` in odd lanes, `x - y` in even ones. -/
def AltRule (F : Fmt) (odd : Bool) (x y r : Nat) : Prop :=
  if odd then SumRule F x (F.neg y) y (F.real x + F.real y) r else SumRule F x (!F.neg y) y (F.real x - F.real y) r

omit hN in
theorem alt_rule {odd : Bool} {x y : Nat} : AltRule F odd x y (fadd F x (if odd then y else fneg F y)) := by
  unfold AltRule
  cases odd
  · exact diff_rule (std_of hF)
  · exact sum_rule (std_of hF)

omit hN in
theorem fsub_lt2 {x y : Nat} (hx : x < 2 ^ (F.w + 1)) : fsub F x y < 2 ^ (F.w + 1) :=
  fadd_lt' (std_of hF) hx (pack_lt (mag_lt _))

theorem run_addsub {a b : List Int} {x y : Nat → Nat} (ha : Is F.ut N a (fun i => ((x i : Nat) : Int)))
    (hb : Is F.ut N b (fun i => ((y i : Nat) : Int))) :
    Runs F.ut N (FAddSub F N a b) (fun i => ((fadd F (x i) (if i % 2 = 1 then y i else fneg F (y i)) : Nat) : Int)) := by
  have S := std_of hF
  unfold FAddSub
  by_cases h1 : N = 1
  · rw [if_pos h1]
    refine Runs.congr (run_fmap2 hF hN (f := fsub F) (fun x y hx _ => fsub_lt2 hF hx) ha hb) fun i hi => ?_
    rw [if_neg (by omega)]; rfl
  · rw [if_neg h1]
    refine Runs.bind (run_fneg hF hN hb) fun n hn => ?_
    refine Runs.bind (Runs.congr (xoddeven (ut_lane hF) hN hb hn)
      (G := fun i => ((if i % 2 = 1 then y i else fneg F (y i) : Nat) : Int)) fun i hi => ?_) fun s hs => ?_
    · beta_reduce; split_ifs <;> rfl
    · exact run_fmap2 hF hN (f := fadd F) (fun x y hx hy => fadd_lt' S hx hy) ha hs

/-- `AddSub(a, b)` of floats: `a - b` in even lanes, `a + b` in odd lanes. -/
theorem C57_add_sub {a b : List Int} (ha : Reg F.ut a) (hb : Reg F.ut b) :
    Lanes F.ut N (FAddSub F N a b) (fun i r => AltRule F (decide (i % 2 = 1)) (pat a i) (pat b i) r.toNat) :=
  (run_addsub hF hN (is_pat hF hN ha) (is_pat hF hN hb)).lanes hN fun i _ _ => by
    rw [Int.toNat_natCast]
    have := alt_rule hF (odd := decide (i % 2 = 1)) (x := pat a i) (y := pat b i)
    simpa only [decide_eq_true_eq] using this

theorem run_muladdsub {a b c : List Int} {x y z : Nat → Nat} (ha : Is F.ut N a (fun i => ((x i : Nat) : Int)))
    (hb : Is F.ut N b (fun i => ((y i : Nat) : Int))) (hc : Is F.ut N c (fun i => ((z i : Nat) : Int))) :
    Runs F.ut N (FMulAddSub F N a b c)
      (fun i => ((fadd F (fmul F (x i) (y i)) (if i % 2 = 1 then z i else fneg F (z i)) : Nat) : Int)) := by
  have S := std_of hF
  have fm : Runs F.ut N (FMul F N a b) (fun i => ((fmul F (x i) (y i) : Nat) : Int)) := zmul hF ha hb hN
  unfold FMulAddSub
  by_cases h1 : N = 1
  · rw [if_pos h1]
    unfold FMulSub
    refine Runs.bind fm fun m hm => ?_
    refine Runs.congr (run_fmap2 hF hN (f := fsub F) (fun x y hx _ => fsub_lt2 hF hx) hm hc) fun i hi => ?_
    rw [if_neg (by omega)]; rfl
  · rw [if_neg h1]
    refine Runs.bind (run_fneg hF hN hc) fun n hn => ?_
    refine Runs.bind (Runs.congr (xoddeven (ut_lane hF) hN hc hn)
      (G := fun i => ((if i % 2 = 1 then z i else fneg F (z i) : Nat) : Int)) fun i hi => ?_) fun s hs => ?_
    · beta_reduce; split_ifs <;> rfl
    · unfold FMulAdd
      exact Runs.bind fm fun m hm => run_fmap2 hF hN (f := fadd F) (fun x y hx hy => fadd_lt' S hx hy) hm hs

/-- `MulAddSub(mul, x, c)` of floats (not fused): the rounded product minus `c` in even lanes, plus `c` in odd lanes. -/
theorem C57_mul_add_sub {a b c : List Int} (ha : Reg F.ut a) (hb : Reg F.ut b) (hc : Reg F.ut c) :
    Lanes F.ut N (FMulAddSub F N a b c) (fun i r => ∃ m, ProdRule F (pat a i) (pat b i) m ∧
      AltRule F (decide (i % 2 = 1)) m (pat c i) r.toNat) :=
  (run_muladdsub hF hN (is_pat hF hN ha) (is_pat hF hN hb) (is_pat hF hN hc)).lanes hN fun i _ _ => by
    rw [Int.toNat_natCast]
    have := alt_rule hF (odd := decide (i % 2 = 1)) (x := fmul F (pat a i) (pat b i)) (y := pat c i)
    exact ⟨_, prod_rule (std_of hF), by simpa only [decide_eq_true_eq] using this⟩

/-- `MulSubAdd(mul, x, c)` of floats: the rounded product plus `c` in even lanes, minus `c` in odd lanes. -/
theorem C57_mul_sub_add {a b c : List Int} (ha : Reg F.ut a) (hb : Reg F.ut b) (hc : Reg F.ut c) :
    Lanes F.ut N (FMulSubAdd F N a b c) (fun i r => ∃ m, ProdRule F (pat a i) (pat b i) m ∧
      AltRule F (decide (i % 2 = 0)) m (pat c i) r.toNat) := by
  unfold FMulSubAdd
  refine Runs.lanes (Runs.bind (run_fneg hF hN (is_pat hF hN hc)) fun n hn =>
    run_muladdsub hF hN (is_pat hF hN ha) (is_pat hF hN hb) hn) hN fun i hi _ => ?_
  rw [Int.toNat_natCast]
  refine ⟨_, prod_rule (std_of hF), ?_⟩
  have := alt_rule hF (odd := decide (i % 2 = 0)) (x := fmul F (pat a i) (pat b i)) (y := pat c i)
  have e : (if i % 2 = 1 then fneg F (pat c i) else fneg F (fneg F (pat c i))) =
      if decide (i % 2 = 0) = true then pat c i else fneg F (pat c i) := by
    rw [fneg_fneg (pat_lt hF hN hc hi).1]
    rcases Nat.mod_two_eq_zero_or_one i with h | h <;> simp [h]
  rw [e]
  exact this

end
end Emu
end Hwy
