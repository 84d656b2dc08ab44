import Verif.GenHalfSpec2

/-!
# C60, part 3: `float` to `float16_t`, the register
-/

namespace Hwy
namespace Emu
open CInt Flt

theorem wrap_neg1 : u32.wrap (-1) = ((2 ^ 32 - 1 : Nat) : Int) := by decide

theorem run_dem_f16 (ar : Bool) {N : Nat} (hN : N ≤ 4) {v : List Int} {x : Nat → Nat}
    (hv : Is u32 N v (fun i => ((x i : Nat) : Int))) :
    Runs u16 N (DemoteF16 ar N v) (fun i => ((demF16 (x i) : Nat) : Int)) := by
  have l : u32 ∈ laneTys := by decide
  have li : i32 ∈ laneTys := by decide
  have u : u32.sgn = false := rfl
  have n : N ≤ cap u32 := hN
  have ni : N ≤ cap i32 := hN
  have hx : ∀ i, i < N → x i < 2 ^ 32 := fun i hi => nat_lt u n hv hi
  unfold DemoteF16
  refine Runs.bind (run_incr ar hN hv) fun ri hri => ?_
  refine Runs.bind (nshl (k := 23) l u n (by decide) hri) fun inc hinc => ?_
  refine Runs.bind (run_fmap2 (F := f32) (f := fadd f32) (Or.inl rfl) hN (fun a b ha hb => fadd_lt' std32 ha hb) hv hinc) fun rv hrv => ?_
  have hrv' : Is u32 N rv (fun i => ((roundedF16 (x i) : Nat) : Int)) := hrv
  refine Runs.bind (nset (k := 255) l u n (by decide)) fun k255 hk255 => ?_
  refine Runs.bind (nset (k := 157 <<< 10) l u n (by decide)) fun k157 hk157 => ?_
  refine Runs.bind (nand l u n hri hk255) fun e he => ?_
  refine Runs.bind (nshl (k := 10) l u n (by decide) he) fun es hes => ?_
  refine Runs.bind (nset (k := 0xFF <<< 10) l u n (by decide)) fun kFF hkFF => ?_
  refine Runs.bind (nand l u n hrv' hkFF) fun r hr => ?_
  refine Runs.bind (nadd l u n hes hr) fun s hs => ?_
  refine Runs.bind (nmin l n hs hk157) fun ex hex => ?_
  have hex' : Is u32 N ex (fun i => ((expF16 (x i) : Nat) : Int)) := hex
  refine RunsM.bind (xeq l n hex' hk157) fun inf hinf => ?_
  refine Runs.bind (nset (k := 126 <<< 10) l u n (by decide)) fun k126 hk126 => ?_
  refine Runs.bind (nsub l u n hex' hk126 fun i hi => (demF16_spec (x i) (hx i hi)).2.1) fun fe hfe => ?_
  refine Runs.bind (xitze (t := u32) l n hinf hrv') fun z hz => ?_
  refine RunsM.bind (run_fnan (F := f32) (Or.inl rfl) hN hrv) fun nan hnan => ?_
  have hnan' : IsMask u32 N nan (fun i => f32.nan (roundedF16 (x i))) := hnan
  have hz' : Is u32 N z (fun i => ((if expF16 (x i) = 157 <<< 10 then 0 else roundedF16 (x i) : Nat) : Int)) := by
    refine is_congr hz fun i hi => ?_
    beta_reduce
    by_cases c : expF16 (x i) = 157 <<< 10
    · rw [if_pos c, if_pos (by rw [c]; rfl)]; rfl
    · rw [if_neg c, if_neg]
      simp only [decide_eq_true_eq]
      exact_mod_cast c
  have hnv : Is u32 N (vecFromMask u32 nan) (fun i => ((if f32.nan (roundedF16 (x i)) then 2 ^ 32 - 1 else 0 : Nat) : Int)) := by
    refine is_congr (is_vecFromMask l hnan') fun i hi => ?_
    beta_reduce
    cases f32.nan (roundedF16 (x i))
    · rfl
    · exact wrap_neg1
  refine Runs.bind (nor l u n hz' hnv) fun um hum => ?_
  refine Runs.bind (xset (t := i32) (x := 0x3FF) li ni (by decide)) fun k3 hk3 => ?_
  have hk3' : Is i32 N k3 (fun _ => i32.wrap ((0x3FF : Nat) : Int)) := hk3
  refine Runs.bind (worand li ni (is_bc_same hfe li rfl ni) (is_bc_same hum li rfl ni) hk3' (fun i hi => nat_lt u n hfe hi)
    (fun i hi => nat_lt u n hum hi) (fun _ _ => by decide)) fun em hem => ?_
  have hem' : Is i32 N em (fun i => i32.wrap ((expMantF16 (x i) : Nat) : Int)) := hem
  have hw : ∀ y : Int, 0 ≤ y → y < 2 ^ 32 → i32.wrap y = if y < 2 ^ 31 then y else y - 2 ^ 32 := by
    intro y h0 h1
    rw [wrap_i32]; split_ifs <;> omega
  refine Runs.bind (Runs.congr (G := fun i => i32.wrap ((roundedF16 (x i) / 2 ^ 16 + roundedF16 (x i) / 2 ^ 31 * 0xFFFF0000 : Nat) : Int))
    (xshr (k := 16) li ni ar (by decide) (by decide) (is_bc_same hrv' li rfl ni)) fun i hi => ?_) fun hi hhi => ?_
  · have hlt := (demF16_spec (x i) (hx i hi)).2.2.1
    beta_reduce
    generalize roundedF16 (x i) = R at *
    rw [hw _ (by omega) (by omega), hw _ (by omega) (by omega), show (16 : Int).toNat = 16 from rfl]
    split_ifs <;> omega
  refine Runs.bind (xset (t := i32) (x := i32.wrap 0xFFFF8000) li ni (by decide)) fun ks hks => ?_
  have hks' : Is i32 N ks (fun _ => i32.wrap ((0xFFFF8000 : Nat) : Int)) := hks
  refine Runs.bind (worand li ni hem' hhi hks' (fun i hi => ?_) (fun i hi => ?_) (fun _ _ => by decide)) fun bi hbi => ?_
  · have := (demF16_spec (x i) (hx i hi)).1
    show _ < 2 ^ 32
    omega
  · have := (demF16_spec (x i) (hx i hi)).2.2.1
    show _ < 2 ^ 32
    omega
  have hbi' : Is i32 N bi (fun i => (expMantF16 (x i) : Int) - (roundedF16 (x i) / 2 ^ 31 : Nat) * 2 ^ 15) := by
    refine is_congr hbi fun i hi => ?_
    obtain ⟨d1, _, d3, _⟩ := demF16_spec (x i) (hx i hi)
    beta_reduce
    generalize roundedF16 (x i) = R at *
    generalize expMantF16 (x i) = E at *
    have e1 : R / 2 ^ 16 + R / 2 ^ 31 * 0xFFFF0000 &&& 0xFFFF8000 = R / 2 ^ 31 * 0xFFFF8000 := by
      rw [show (0xFFFF8000 : Nat) = (2 ^ 17 - 1) <<< 15 by decide, and_highMask _ 17 15 (by omega)]
      omega
    have e2 : E ||| R / 2 ^ 31 * 0xFFFF8000 = R / 2 ^ 31 * 0xFFFF8000 + E := by
      rw [Nat.or_comm, show R / 2 ^ 31 * 0xFFFF8000 = 2 ^ 15 * (R / 2 ^ 31 * 0x1FFFF) by omega, ← Nat.two_pow_add_eq_or_of_lt d1]
    rw [e1, e2, hw _ (by omega) (by omega)]
    split_ifs <;> omega
  have hdm := C49_demote (tF := i32) (tT := i16) li (by decide) (by decide) ni hbi'.1
  refine Runs.bind (Lanes.runs (t := i16) (F := fun i => (expMantF16 (x i) : Int) - (roundedF16 (x i) / 2 ^ 31 : Nat) * 2 ^ 15) hdm
    (show N ≤ 8 by omega) fun i y hi hy e => ?_) fun h hh => ?_
  · rw [e, hbi'.2 i hi]
    obtain ⟨d1, _, d3, _⟩ := demF16_spec (x i) (hx i hi)
    beta_reduce
    rw [clamp_cases i16 _ (by decide)]
    rw [if_neg (by show ¬ _ < -32768; omega), if_neg (by show ¬ 32767 < _; omega)]
  refine Runs.congr (Runs.ret (is_bc_same hh (by decide) rfl (show N ≤ 8 by omega))) fun i hi => ?_
  obtain ⟨d1, _, d3, _⟩ := demF16_spec (x i) (hx i hi)
  beta_reduce
  rw [wrap_u16]
  unfold demF16
  push_cast
  generalize (roundedF16 (x i) : Nat) = R at *
  generalize expMantF16 (x i) = E at *
  omega

/-- What `DemoteTo` must give for the `float` bits `b`: the nearest `float16_t`, ties to even, overflow to infinity; the sign
is kept, infinity stays infinity, NaN becomes some NaN. -/
def DemotedF16 (b r : Nat) : Prop :=
  (b % 2 ^ 31 ≤ f32.inf → r / 2 ^ 15 = b / 2 ^ 31) ∧
  (b % 2 ^ 31 < f32.inf → IsNearestEven f16 125 (f32.val (b % 2 ^ 31)) (r % 2 ^ 15)) ∧
  (b % 2 ^ 31 = f32.inf → r % 2 ^ 15 = f16.inf) ∧ (b % 2 ^ 31 > f32.inf → r % 2 ^ 15 > f16.inf)

/-- **C60.** `DemoteTo` `float` to `float16_t`. -/
theorem C60_demote_f16 (ar : Bool) {N : Nat} (hN : N ≤ 4) {v : List Int} (hv : Reg u32 v) :
    Lanes u16 N (DemoteF16 ar N v) (fun i r => DemotedF16 (pat v i) r.toNat) := by
  refine (run_dem_f16 ar hN (is_pat32 hN hv)).lanes (show N ≤ 8 by omega) fun i hi _ => ?_
  rw [Int.toNat_natCast]
  have hlt : pat v i < 2 ^ 32 := pat32_lt hN hv hi
  obtain ⟨_, _, _, d4, d5⟩ := demF16_spec (pat v i) hlt
  obtain ⟨c1, c2, c3, c4, c5⟩ := C09_f16FromF32 (pat v i) hlt
  exact ⟨fun h => by rw [d4 h]; exact c2, fun h => by rw [d4 h.le]; exact c3 h, fun h => by rw [d4 h.le]; exact c4 h, d5⟩

/-- **C60.** Demoting a `float16_t` that was promoted gives it back, unless it is infinity or NaN. -/
theorem C60_round_trip (ar : Bool) {N : Nat} (hN : N ≤ 4) {v : List Int} (hv : Reg u16 v) :
    Lanes u16 N (do DemoteF16 ar N (← PromoteF16 ar N v)) (fun i r => pat v i % 2 ^ 15 < f16.inf → r = lane v i) := by
  refine (Runs.bind (run_prom_f16 ar hN (is_pat16 (by omega) hv)) fun f hf => run_dem_f16 ar hN hf).lanes
    (show N ≤ 8 by omega) fun i hi _ hfin => ?_
  have hlt := pat16_lt (N := N) (by omega) hv hi
  obtain ⟨p1, p2, p3, p4⟩ := promF16_all (pat v i) hlt
  obtain ⟨_, _, _, d4, _⟩ := demF16_spec (promF16 (pat v i)) p1
  obtain ⟨s1, s2, s3, _⟩ := C09_f32FromF16 (pat v i) hlt
  obtain ⟨s3, s4⟩ := s3 hfin
  have hinj : promF16 (pat v i) % 2 ^ 31 = f32FromF16 (pat v i) % 2 ^ 31 := by
    rcases Nat.lt_trichotomy (promF16 (pat v i) % 2 ^ 31) (f32FromF16 (pat v i) % 2 ^ 31) with h | h | h
    · have := val_strict f32 h; omega
    · exact h
    · have := val_strict f32 h; omega
  have heq : promF16 (pat v i) = f32FromF16 (pat v i) := by omega
  rw [d4 p3.le, heq, C09_roundTrip _ hlt hfin.le]
  exact ((is_pat16 (N := N) (by omega) hv).2 i hi).symm

end Emu
end Hwy
