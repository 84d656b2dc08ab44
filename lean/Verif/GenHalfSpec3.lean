import Verif.GenHalfDem
import Verif.GenBytes

/-!
# C60, part 4: `double` to `float16_t`, the generic `bfloat16_t` conversions, `PromoteInRange*To`, `bfloat16_t` products
-/

namespace Hwy
namespace Emu
open CInt Flt

/-! ### `double` to `float16_t` -/

theorem xdemote64 {N : Nat} (hN : N ≤ 2) {v : List Int} {x : Nat → Nat} (hv : Is u64 N v (fun i => ((x i : Nat) : Int))) :
    Runs u32 N (DemoteF64 N v) (fun i => ((demoteF64 (x i) : Nat) : Int)) := by
  refine Runs.of (conv_lanes (t := u32) (by decide) (show N ≤ 4 by omega) (by rw [hv.1.len]; exact hN) (fun i hi => ?_))
  refine ⟨_, rfl, ?_, by rw [hv.2 i hi, Int.toNat_natCast]⟩
  have h1 : lane v i = ((x i : Nat) : Int) := hv.2 i hi
  have h2 : x i < 2 ^ 64 := nat_lt (t := u64) rfl hN hv hi
  rw [h1, Int.toNat_natCast]
  exact (has_nat (Or.inl rfl)).2 (demoteF64_spec h2).1

/-- Where `DemoteTo` `double` to `float` saturates, both the saturated and the correctly rounded `float` become infinite
as `float16_t`. -/
theorem sat_f16 (y : Nat) (hy : y < 2 ^ 64) (hn : y % 2 ^ 63 ≤ f64.inf) :
    demoteF64 y % 2 ^ 31 ≤ f32.inf ∧ demoteF64 y < 2 ^ 32 ∧ f16FromF32 (demoteF64 y) = f16FromF32 (f32OfF64 y) := by
  have hI : f32.inf = 255 * 2 ^ 23 := by decide
  obtain ⟨s1, s2, s3, s4, s5⟩ := f32OfF64_spec y hy
  have hle : f32OfF64 y % 2 ^ 31 ≤ f32.inf := by
    rcases Nat.lt_or_ge (y % 2 ^ 63) f64.inf with h | h
    · exact (s3 h).2
    · exact (s4 (by omega)).le
  unfold demoteF64
  by_cases hs : (Flt.scalarIsInf f64 y || flt f64 (f64OfF32 f32Highest) (scalarAbs f64 y)) = true
  · rw [if_pos hs]
    have hsb : Flt.scalarSignBit f64 y = decide (2 ^ 63 ≤ y) := scalarSignBit_eq (F := f64) hy
    have hge : 254 * 2 ^ 23 + (2 ^ 23 - 1) ≤ f32OfF64 y % 2 ^ 31 := by
      rcases Nat.lt_or_ge (y % 2 ^ 63) f64.inf with h | h
      · rw [(s3 h).1]
        rw [scalarIsInf_eq std64, decide_eq_false (show ¬ f64.mag y = f64.inf from by show ¬ y % 2 ^ 63 = _; omega), Bool.false_or,
          scalarAbs_eq] at hs
        unfold flt at hs
        simp only [Bool.and_eq_true, decide_eq_true_eq] at hs
        have hv := hs.2
        have k1 : f64.sval (f64OfF32 f32Highest) = (f32.val f32Highest * 2 ^ 925 : Nat) := by decide +kernel
        have k2 : f64.sval (f64.mag y) = (f64.val (y % 2 ^ 63) : Nat) := by
          unfold Fmt.sval
          rw [neg_of_lt (mag_lt y), mag_of_lt (mag_lt y)]; rfl
        rw [k1, k2] at hv
        have hv' : f32.val f32Highest * 2 ^ 925 ≤ f64.val (y % 2 ^ 63) := by exact_mod_cast hv.le
        exact (Local.exact f32 925 f32Highest (by decide)).mono (rneEncode_local f32 (by decide) (by decide) 925 _) hv'
      · rw [s4 (by omega)]; omega
    have hc : f16Code (f32OfF64 y % 2 ^ 31 / 2 ^ 23) (f32OfF64 y % 2 ^ 23) = 31744 := by
      have : f32OfF64 y % 2 ^ 31 = 254 * 2 ^ 23 + (2 ^ 23 - 1) ∨ f32OfF64 y % 2 ^ 31 = 255 * 2 ^ 23 := by omega
      rcases this with h | h
      · rw [show f32OfF64 y % 2 ^ 31 / 2 ^ 23 = 254 by omega, show f32OfF64 y % 2 ^ 23 = 2 ^ 23 - 1 by omega]; decide
      · rw [show f32OfF64 y % 2 ^ 31 / 2 ^ 23 = 255 by omega, show f32OfF64 y % 2 ^ 23 = 0 by omega]; decide
    rw [f16FromF32_split _ s1, hc, s2, hsb]
    by_cases hg : 2 ^ 63 ≤ y
    · rw [decide_eq_true hg, show y / 2 ^ 63 = 1 by omega]
      exact ⟨by decide, by decide, by decide⟩
    · rw [decide_eq_false hg, show y / 2 ^ 63 = 0 by omega]
      exact ⟨by decide, by decide, by decide⟩
  · rw [if_neg hs]
    exact ⟨hle, s1, rfl⟩

/-- What `DemoteTo` must give for the `double` bits `b` (`2^-1074 = 2^-1050 * 2^-24`). -/
def DemotedF16OfF64 (b r : Nat) : Prop :=
  (b % 2 ^ 63 ≤ f64.inf → r / 2 ^ 15 = b / 2 ^ 63) ∧
  (b % 2 ^ 63 < f64.inf → IsNearestEven f16 1050 (f64.val (b % 2 ^ 63)) (r % 2 ^ 15)) ∧
  (b % 2 ^ 63 = f64.inf → r % 2 ^ 15 = f16.inf) ∧ (b % 2 ^ 63 > f64.inf → r % 2 ^ 15 > f16.inf)

theorem is_pat64 {N : Nat} (hN : N ≤ 2) {v : List Int} (hv : Reg u64 v) : Is u64 N v (fun i => ((pat v i : Nat) : Int)) :=
  ⟨hv, fun i hi => by
    have := (has_u (t := u64) rfl (hv.lane_has (i := i) (show i < 2 by omega))).1
    unfold pat; beta_reduce; omega⟩

theorem run_dem_f64 (ar : Bool) {N : Nat} (hN : N ≤ 2) {v : List Int} {x : Nat → Nat} (hv : Is u64 N v (fun i => ((x i : Nat) : Int))) :
    Runs u16 N (DemoteF16OfF64 ar N v) (fun i => ((demF16 (demoteF64 (roundOdd29 (x i))) : Nat) : Int)) := by
  have l : u64 ∈ laneTys := by decide
  have u : u64.sgn = false := rfl
  have n : N ≤ cap u64 := hN
  unfold DemoteF16OfF64
  refine Runs.bind (nset (k := 0xFFFFFFFFE0000000) l u n (by decide)) fun m hm => ?_
  refine Runs.bind (nand l u n hv hm) fun a ha => ?_
  refine Runs.bind (nset (k := 0x1FFFFFFF) l u n (by decide)) fun c hc => ?_
  refine Runs.bind (nadd l u n hv hc) fun s hs => ?_
  refine Runs.bind (nset (k := 0x20000000) l u n (by decide)) fun q hq => ?_
  refine Runs.bind (norand l u n ha hs hq) fun r hr => ?_
  have hr' : Is u64 N r (fun i => ((roundOdd29 (x i) : Nat) : Int)) := hr
  refine Runs.bind (xdemote64 hN hr') fun f hf => ?_
  exact run_dem_f16 ar (by omega) hf

/-- **C60.** `DemoteTo` `double` to `float16_t`: correctly rounded in spite of the intermediate `float`. -/
theorem C60_demote_f16_f64 (ar : Bool) {N : Nat} (hN : N ≤ 2) {v : List Int} (hv : Reg u64 v) :
    Lanes u16 N (DemoteF16OfF64 ar N v) (fun i r => DemotedF16OfF64 (pat v i) r.toNat) := by
  refine (run_dem_f64 ar hN (is_pat64 hN hv)).lanes (show N ≤ 8 by omega) fun i hi _ => ?_
  rw [Int.toNat_natCast]
  have hlt : pat v i < 2 ^ 64 := nat_lt (t := u64) rfl hN (is_pat64 hN hv) hi
  generalize pat v i = b at *
  obtain ⟨c1, c2, c3, c4, c5⟩ := C42_f16FromF64 b hlt
  have hmagl : oddMag 29 (b % 2 ^ 63) < 2 ^ 63 := oddMag_lt 29 _ 63 (by decide) (Nat.mod_lt _ (by decide))
  obtain ⟨o1, o2, o3⟩ := oddMag_fin 29 (b % 2 ^ 63) (by decide)
  have hro := roundOdd29_eq b hlt
  have hrl : roundOdd29 b < 2 ^ 64 := by rw [hro]; omega
  have hrm : roundOdd29 b % 2 ^ 63 = oddMag 29 (b % 2 ^ 63) := by rw [hro]; omega
  have key : b % 2 ^ 63 ≤ f64.inf → demF16 (demoteF64 (roundOdd29 b)) = f16FromF64 b := by
    intro h
    have h' : roundOdd29 b % 2 ^ 63 ≤ f64.inf := by
      rw [hrm]
      rcases Nat.lt_or_ge (b % 2 ^ 63) f64.inf with g | g
      · exact (o1 g).le
      · exact (o2 (by omega)).le
    obtain ⟨t1, t2, t3⟩ := sat_f16 _ hrl h'
    rw [(demF16_spec _ t2).2.2.2.1 t1, t3]; rfl
  refine ⟨fun h => by rw [key h]; exact c2, fun h => by rw [key h.le]; exact c3 h, fun h => by rw [key h.le]; exact c4 h, fun h => ?_⟩
  have hnan : f64.nan (roundOdd29 b) = true := decide_eq_true (by show f64.inf < roundOdd29 b % 2 ^ 63; rw [hrm]; exact o3 h)
  obtain ⟨d1, _, d3, _⟩ := demoteF64_spec hrl
  exact (demF16_spec _ d1).2.2.2.2 (of_decide_eq_true (d3 hnan))

/-! ### `float` to `bfloat16_t` -/

/-- `RoundF32ForDemoteToBF16`, one lane. -/
def roundBF16 (b : Nat) : Nat :=
  if f32.nan b then b ||| 0x00400000 else (b + ((b / 2 ^ 16 &&& 1) + 0x7FFF) % 2 ^ 32) % 2 ^ 32

theorem run_round_bf16 (ar : Bool) {N : Nat} (hN : N ≤ 4) {v : List Int} {x : Nat → Nat} (hv : Is u32 N v (fun i => ((x i : Nat) : Int))) :
    Runs u32 N (RoundF32ForDemoteToBF16 ar N v) (fun i => ((roundBF16 (x i) : Nat) : Int)) := by
  have l : u32 ∈ laneTys := by decide
  have u : u32.sgn = false := rfl
  have n : N ≤ cap u32 := hN
  unfold RoundF32ForDemoteToBF16
  refine RunsM.bind (run_fnan (F := f32) (Or.inl rfl) hN hv) fun nan hnan => ?_
  refine RunsM.bind (xmnot (t := u32) l n hnan) fun nn hnn => ?_
  refine Runs.bind (nshr (k := 16) l u n ar (by decide) hv) fun s hs => ?_
  refine Runs.bind (nset (k := 1) l u n (by decide)) fun one hone => ?_
  refine Runs.bind (nand l u n hs hone) fun odd hodd => ?_
  refine Runs.bind (nset (k := 0x7FFF) l u n (by decide)) fun c hc => ?_
  refine Runs.bind (nadd l u n hodd hc) fun ri hri => ?_
  refine Runs.bind (nset (k := 0x00400000) l u n (by decide)) fun q hq => ?_
  refine Runs.bind (nor l u n hv hq) fun no hno => ?_
  unfold MaskedAddOr
  refine Runs.bind (nadd l u n hv hri) fun s2 hs2 => ?_
  refine Runs.congr (xite (t := u32) l n hnn hs2 hno) fun i hi => ?_
  beta_reduce
  unfold roundBF16
  cases f32.nan (x i) <;> rfl

theorem roundBF16_hi (b : Nat) (hb : b < 2 ^ 32) : roundBF16 b < 2 ^ 32 ∧ roundBF16 b / 2 ^ 16 = bf16FromF32 b := by
  have hI : f32.inf = 255 * 2 ^ 23 := by decide
  have a1 : b &&& 0x7FFFFFFF = b % 2 ^ 31 := by
    rw [show (0x7FFFFFFF : Nat) = 2 ^ 31 - 1 by decide, Nat.and_two_pow_sub_one_eq_mod]
  have a2 : b / 2 ^ 16 &&& 1 = b / 2 ^ 16 % 2 := Nat.and_one_is_mod _
  have a3 : b >>> 16 &&& 1 = b / 2 ^ 16 % 2 := by rw [Nat.shiftRight_eq_div_pow]; exact Nat.and_one_is_mod _
  unfold roundBF16 bf16FromF32 bf16RoundIncr
  rw [a1, a2, a3, show (0x7F800000 : Nat) = 255 * 2 ^ 23 by decide]
  unfold Fmt.nan
  rw [show f32.mag b = b % 2 ^ 31 from rfl, hI]
  by_cases hn : 255 * 2 ^ 23 < b % 2 ^ 31
  · rw [if_pos (decide_eq_true hn), if_neg (by omega), if_pos hn]
    refine ⟨Nat.or_lt_two_pow hb (by decide), ?_⟩
    rw [Nat.add_zero, Nat.mod_eq_of_lt hb, Nat.shiftRight_eq_div_pow, ← Nat.shiftRight_eq_div_pow, Nat.shiftRight_or_distrib,
      Nat.shiftRight_eq_div_pow, show (0x00400000 >>> 16 : Nat) = 1 <<< 6 by decide]
    exact (Nat.mod_eq_of_lt (Nat.or_lt_two_pow (by omega) (by decide))).symm
  · rw [if_neg (by simpa using hn), if_neg hn]
    refine ⟨Nat.mod_lt _ (by decide), ?_⟩
    rw [show (0 <<< 6 : Nat) = 0 by decide, Nat.or_zero, Nat.shiftRight_eq_div_pow]
    split_ifs with hf <;> omega

/-- The 16-bit halves of the rounded bits. -/
theorem is_round_halves {N : Nat} (hN : N ≤ 4) {v : List Int} {x : Nat → Nat} (hv : Is u32 N v (fun i => ((x i : Nat) : Int))) :
    Is u16 (2 * N) (BitCast u32 u16 v) (fun i => ((if i % 2 = 1 then x (i / 2) / 2 ^ 16 else x (i / 2) % 2 ^ 16 : Nat) : Int)) := by
  refine is_congr (is_bc_narrow hv (by decide) (by decide) rfl hN) fun i hi => ?_
  have h1 : x (i / 2) < 2 ^ 32 := nat_lt (t := u32) rfl hN hv (by omega)
  beta_reduce
  rw [wrap_u16, show u16.bits = 16 from rfl]
  by_cases c : i % 2 = 1
  · rw [if_pos c, c]; norm_num; omega
  · rw [if_neg c, show i % 2 = 0 by omega]; norm_num

/-- **C60.** The generic `DemoteTo`, `OrderedDemote2To` and `ReorderDemote2To` of `float` to `bfloat16_t`: each lane is the
nearest `bfloat16_t`, ties to even; NaN stays NaN, the sign is kept. -/
theorem C60_demote_bf16 (ar : Bool) {N : Nat} (hN : N ≤ 4) {v : List Int} (hv : Reg u32 v) :
    Lanes u16 N (GDemoteBF16 ar N v) (fun i r => IsBF16Of (pat v i) r.toNat) := by
  have hx : ∀ i, i < N → pat v i < 2 ^ 32 := fun i hi => nat_lt (t := u32) rfl hN (is_pat32 hN hv) hi
  have hr : Runs u16 N (GDemoteBF16 ar N v) (fun i => ((bf16FromF32 (pat v i) : Nat) : Int)) := by
    unfold GDemoteBF16
    refine Runs.bind (run_round_bf16 ar hN (is_pat32 hN hv)) fun r hr => ?_
    dsimp only
    have hh := is_round_halves hN hr
    refine Runs.bind (xconcatodd (t := u16) (by decide) (show 2 * N ≤ 8 by omega) hh hh) fun o ho => ?_
    refine Runs.congr (xlower ho (by decide) (show 2 * N ≤ 8 by omega) (by omega)) fun i hi => ?_
    beta_reduce
    rw [if_pos hi, if_pos (by omega), show (2 * i + 1) / 2 = i by omega, (roundBF16_hi _ (hx i hi)).2]
  refine hr.lanes (show N ≤ 8 by omega) fun i hi _ => ?_
  rw [Int.toNat_natCast]
  exact (bf16_lane _ (hx i hi)).2

theorem C60_ordered_demote2_bf16 (ar : Bool) {N : Nat} (hN : N ≤ 4) {a b : List Int} (ha : Reg u32 a) (hb : Reg u32 b) :
    Lanes u16 (2 * N) (GOrderedDemote2BF16 ar N a b) (fun i r =>
      IsBF16Of (if i < N then pat a i else pat b (i - N)) r.toNat) := by
  have hx : ∀ i, i < N → pat a i < 2 ^ 32 := fun i hi => nat_lt (t := u32) rfl hN (is_pat32 hN ha) hi
  have hy : ∀ i, i < N → pat b i < 2 ^ 32 := fun i hi => nat_lt (t := u32) rfl hN (is_pat32 hN hb) hi
  have hr : Runs u16 (2 * N) (GOrderedDemote2BF16 ar N a b) (fun i => ((bf16FromF32 (if i < N then pat a i else pat b (i - N)) : Nat) : Int)) := by
    unfold GOrderedDemote2BF16
    refine Runs.bind (run_round_bf16 ar hN (is_pat32 hN ha)) fun ra hra => ?_
    refine Runs.bind (run_round_bf16 ar hN (is_pat32 hN hb)) fun rb hrb => ?_
    refine Runs.congr (xconcatodd (t := u16) (by decide) (show 2 * N ≤ 8 by omega) (is_round_halves hN hrb) (is_round_halves hN hra))
      fun i hi => ?_
    beta_reduce
    by_cases c : i < N
    · rw [if_pos c, if_pos c, if_pos (by omega), show (2 * i + 1) / 2 = i by omega, (roundBF16_hi _ (hx i c)).2]
    · rw [if_neg c, if_neg c, if_pos (by omega), show (2 * (i - N) + 1) / 2 = i - N by omega, (roundBF16_hi _ (hy _ (by omega))).2]
  refine hr.lanes (show 2 * N ≤ 8 by omega) fun i hi _ => ?_
  rw [Int.toNat_natCast]
  refine (bf16_lane _ ?_).2
  split_ifs with c
  · exact hx i c
  · exact hy _ (by omega)

theorem C60_reorder_demote2_bf16 (ar : Bool) {N : Nat} (hN : N ≤ 4) {a b : List Int} (ha : Reg u32 a) (hb : Reg u32 b) :
    Lanes u16 (2 * N) (GReorderDemote2BF16 ar N a b) (fun i r =>
      IsBF16Of (if i % 2 = 1 then pat a (i / 2) else pat b (i / 2)) r.toNat) := by
  have hx : ∀ i, i < N → pat a i < 2 ^ 32 := fun i hi => nat_lt (t := u32) rfl hN (is_pat32 hN ha) hi
  have hy : ∀ i, i < N → pat b i < 2 ^ 32 := fun i hi => nat_lt (t := u32) rfl hN (is_pat32 hN hb) hi
  have hr : Runs u16 (2 * N) (GReorderDemote2BF16 ar N a b) (fun i => ((bf16FromF32 (if i % 2 = 1 then pat a (i / 2) else pat b (i / 2)) : Nat) : Int)) := by
    unfold GReorderDemote2BF16
    refine Runs.bind (run_round_bf16 ar hN (is_pat32 hN ha)) fun ra hra => ?_
    refine Runs.bind (run_round_bf16 ar hN (is_pat32 hN hb)) fun rb hrb => ?_
    refine Runs.bind (nshr (k := 16) (t := u32) (by decide) rfl hN ar (by decide) hrb) fun be hbe => ?_
    refine Runs.congr (xoddeven (t := u16) (by decide) (show 2 * N ≤ 8 by omega) (is_round_halves hN hra) (is_round_halves hN hbe))
      fun i hi => ?_
    beta_reduce
    by_cases c : i % 2 = 1
    · rw [if_pos c, if_pos c, if_pos c, (roundBF16_hi _ (hx _ (by omega))).2]
    · have h2 := roundBF16_hi _ (hy (i / 2) (by omega))
      rw [if_neg c, if_neg c, if_neg c, ← h2.2]
      rw [Nat.mod_eq_of_lt (by omega)]
  refine hr.lanes (show 2 * N ≤ 8 by omega) fun i hi _ => ?_
  rw [Int.toNat_natCast]
  refine (bf16_lane _ ?_).2
  split_ifs
  · exact hx _ (by omega)
  · exact hy _ (by omega)

end Emu
end Hwy
