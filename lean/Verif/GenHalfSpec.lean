import Verif.GenHalf
import Verif.GenRotSpec3
import Verif.GenFloatSpec2
import Verif.EmuFArithLanes
import Verif.EmuConvSpec4
import Verif.Float64Spec

/-!
# C60: `float16_t` and `bfloat16_t` conversions, part 1: lanes that are natural numbers, `float16_t` to `float`
-/

namespace Hwy
namespace Emu
open CInt Flt

/-! ### Operations on unsigned lanes -/

theorem nat_bits {t : Ty} (x : Nat) : bitsOf t (x : Int) = BitVec.ofNat t.bits x := by
  unfold bitsOf; exact BitVec.ofInt_natCast _ _

theorem and_nat {t : Ty} (hu : t.sgn = false) {x y : Nat} (hx : x < 2 ^ t.bits) (hy : y < 2 ^ t.bits) :
    t.ofBits (bitsOf t (x : Int) &&& bitsOf t (y : Int)) = ((x &&& y : Nat) : Int) := by
  unfold Ty.ofBits
  rw [hu, nat_bits, nat_bits]
  simp only [Bool.false_eq_true, if_false, BitVec.toNat_and, BitVec.toNat_ofNat]
  rw [Nat.mod_eq_of_lt hx, Nat.mod_eq_of_lt hy]

theorem or_nat {t : Ty} (hu : t.sgn = false) {x y : Nat} (hx : x < 2 ^ t.bits) (hy : y < 2 ^ t.bits) :
    t.ofBits (bitsOf t (x : Int) ||| bitsOf t (y : Int)) = ((x ||| y : Nat) : Int) := by
  unfold Ty.ofBits
  rw [hu, nat_bits, nat_bits]
  simp only [Bool.false_eq_true, if_false, BitVec.toNat_or, BitVec.toNat_ofNat]
  rw [Nat.mod_eq_of_lt hx, Nat.mod_eq_of_lt hy]

theorem wrap_nat {t : Ty} (h : t ∈ laneTys) (hu : t.sgn = false) (x : Nat) : t.wrap (x : Int) = ((x % 2 ^ t.bits : Nat) : Int) := by
  have h1 : t.Has ((x % 2 ^ t.bits : Nat) : Int) := by
    have := Nat.mod_lt x (Nat.two_pow_pos t.bits)
    constructor
    · unfold Ty.lo; rw [hu]; simp only [Bool.false_eq_true, if_false]; omega
    · unfold Ty.hi; rw [hu]; simp only [Bool.false_eq_true, if_false]
      have : ((x % 2 ^ t.bits : Nat) : Int) < ((2 ^ t.bits : Nat) : Int) := by exact_mod_cast this
      push_cast at this ⊢
      omega
  refine (mod_unique h h1 ?_).symm
  push_cast
  exact Int.mod_modEq _ _

section
variable {t : Ty} (h : t ∈ laneTys) (hu : t.sgn = false) {N : Nat} (hN : N ≤ cap t) {a b c : List Int} {x y z : Nat → Nat}
include h hu hN

omit h in
theorem nat_lt (ha : Is t N a (fun i => ((x i : Nat) : Int))) {i : Nat} (hi : i < N) : x i < 2 ^ t.bits := by
  have := (has_u hu (ha.has hN hi)).2
  beta_reduce at this
  exact_mod_cast this

theorem nand (ha : Is t N a (fun i => ((x i : Nat) : Int))) (hb : Is t N b (fun i => ((y i : Nat) : Int))) :
    Runs t N (And t N a b) (fun i => ((x i &&& y i : Nat) : Int)) :=
  Runs.congr (xand h hN ha hb) fun _ hi => and_nat hu (nat_lt hu hN ha hi) (nat_lt hu hN hb hi)

theorem nor (ha : Is t N a (fun i => ((x i : Nat) : Int))) (hb : Is t N b (fun i => ((y i : Nat) : Int))) :
    Runs t N (Or t N a b) (fun i => ((x i ||| y i : Nat) : Int)) :=
  Runs.congr (xor' h hN ha hb) fun _ hi => or_nat hu (nat_lt hu hN ha hi) (nat_lt hu hN hb hi)

theorem norand (ha : Is t N a (fun i => ((x i : Nat) : Int))) (hb : Is t N b (fun i => ((y i : Nat) : Int)))
    (hc : Is t N c (fun i => ((z i : Nat) : Int))) :
    Runs t N (OrAnd t N a b c) (fun i => ((x i ||| (y i &&& z i) : Nat) : Int)) := by
  unfold OrAnd
  exact Runs.bind (nand h hu hN hb hc) fun d hd => nor h hu hN ha hd

theorem nadd (ha : Is t N a (fun i => ((x i : Nat) : Int))) (hb : Is t N b (fun i => ((y i : Nat) : Int))) :
    Runs t N (Add t N a b) (fun i => (((x i + y i) % 2 ^ t.bits : Nat) : Int)) :=
  Runs.congr (xadd h hN ha hb) fun i _ => by
    rw [← wrap_nat h hu]; push_cast; rfl

theorem nsub (ha : Is t N a (fun i => ((x i : Nat) : Int))) (hb : Is t N b (fun i => ((y i : Nat) : Int)))
    (hle : ∀ i, i < N → y i ≤ x i) :
    Runs t N (Sub t N a b) (fun i => ((x i - y i : Nat) : Int)) :=
  Runs.congr (xsub h hN ha hb) fun i hi => by
    have h1 := nat_lt hu hN ha hi
    have h2 := hle i hi
    rw [show ((x i : Int) - (y i : Int)) = ((x i - y i : Nat) : Int) by omega, wrap_nat h hu, Nat.mod_eq_of_lt (by omega)]

theorem nshr (ar : Bool) {k : Nat} (hk : k < t.bits) (ha : Is t N a (fun i => ((x i : Nat) : Int))) :
    Runs t N (ShiftRight ar t N (k : Int) a) (fun i => ((x i / 2 ^ k : Nat) : Int)) :=
  Runs.congr (xshr h hN ar (by omega) (by omega) ha) fun i _ => by
    rw [Int.toNat_natCast]; push_cast; rfl

theorem nshl {k : Nat} (hk : k < t.bits) (ha : Is t N a (fun i => ((x i : Nat) : Int))) :
    Runs t N (ShiftLeft t N (k : Int) a) (fun i => (((x i * 2 ^ k) % 2 ^ t.bits : Nat) : Int)) :=
  Runs.congr (xshl h hN (by omega) (by omega) ha) fun i _ => by
    rw [← wrap_nat h hu, Int.toNat_natCast]; push_cast; rfl

theorem nset {k : Nat} (hk : k < 2 ^ t.bits) : Runs t N (Set t N (k : Int)) (fun _ => (k : Int)) := by
  refine xset h hN ?_
  have := wrap_nat h hu k
  rw [Nat.mod_eq_of_lt hk] at this
  rw [← this]
  exact has_wrap' h _

omit hu in
theorem nmin (ha : Is t N a (fun i => ((x i : Nat) : Int))) (hb : Is t N b (fun i => ((y i : Nat) : Int))) :
    Runs t N (Min t N a b) (fun i => ((min (x i) (y i) : Nat) : Int)) :=
  Runs.congr (xmin h hN ha hb) fun i _ => by push_cast; rfl

omit hu in
theorem nmax (ha : Is t N a (fun i => ((x i : Nat) : Int))) (hb : Is t N b (fun i => ((y i : Nat) : Int))) :
    Runs t N (Max t N a b) (fun i => ((max (x i) (y i) : Nat) : Int)) :=
  Runs.congr (xmax h hN ha hb) fun i _ => by push_cast; rfl

end

/-! ### `float16_t` to `float` -/

/-- Integers below `1024` times a power of two are `float` values. -/
theorem f32_scaled (m : Nat) (hm : m < 1024) (j : Nat) (hj : j ≤ 149) : ∃ c, c < f32.inf ∧ f32.val c = m * 2 ^ j := by
  rcases Nat.eq_zero_or_pos m with h0 | h0
  · exact ⟨0, by decide, by subst h0; simp; decide⟩
  · -- normalise
    have hl := Nat.log2_self_le (n := m) (by omega)
    have hlt := @Nat.lt_log2_self m
    generalize hq : Nat.log2 m = q at *
    have hq10 : q < 10 := by
      by_contra hcon
      have : 2 ^ 10 ≤ 2 ^ q := Nat.pow_le_pow_right (by decide) (by omega)
      omega
    have e2 : 2 ^ q * 2 ^ (23 - q) = 2 ^ 23 := by rw [← Nat.pow_add]; congr 1; omega
    rcases Nat.lt_or_ge (q + j) 23 with h | h
    · refine ⟨m * 2 ^ j, ?_, val_small f32 _ ?_⟩
      · have : m * 2 ^ j < 2 ^ (q + 1) * 2 ^ j := Nat.mul_lt_mul_of_pos_right hlt (Nat.two_pow_pos _)
        rw [← Nat.pow_add] at this
        have h3 : 2 ^ (q + 1 + j) ≤ 2 ^ 23 := Nat.pow_le_pow_right (by decide) (by omega)
        have : f32.inf = 255 * 2 ^ 23 := by decide
        omega
      · have : m * 2 ^ j < 2 ^ (q + 1) * 2 ^ j := Nat.mul_lt_mul_of_pos_right hlt (Nat.two_pow_pos _)
        rw [← Nat.pow_add] at this
        have h3 : 2 ^ (q + 1 + j) ≤ 2 ^ 23 := Nat.pow_le_pow_right (by decide) (by omega)
        show m * 2 ^ j ≤ 2 ^ 23
        omega
    · have hm2 : 2 ^ 23 ≤ m * 2 ^ (23 - q) := by
        rw [← e2]; exact Nat.mul_le_mul_right _ hl
      have hm3 : m * 2 ^ (23 - q) < 2 ^ 24 := by
        have : m * 2 ^ (23 - q) < 2 ^ (q + 1) * 2 ^ (23 - q) := Nat.mul_lt_mul_of_pos_right hlt (Nat.two_pow_pos _)
        rw [← Nat.pow_add, show q + 1 + (23 - q) = 24 by omega] at this
        exact this
      refine ⟨(q + j - 22) * 2 ^ 23 + (m * 2 ^ (23 - q) - 2 ^ 23), ?_, ?_⟩
      · have : f32.inf = 255 * 2 ^ 23 := by decide
        have : q + j - 22 ≤ 136 := by omega
        omega
      · have := val_mul_add f32 (q + j - 22) (m * 2 ^ (23 - q) - 2 ^ 23) (by omega) (by show _ ≤ 2 ^ 23; omega)
        rw [show (q + j - 22) * 2 ^ f32.p = (q + j - 22) * 2 ^ 23 from rfl] at this
        rw [this, show 2 ^ f32.p + (m * 2 ^ (23 - q) - 2 ^ 23) = m * 2 ^ (23 - q) by
          show 2 ^ 23 + _ = _; omega, Nat.mul_assoc, ← Nat.pow_add]
        congr 2; omega

theorem is_pat16 {N : Nat} (hN : N ≤ 8) {v : List Int} (hv : Reg u16 v) : Is u16 N v (fun i => ((pat v i : Nat) : Int)) :=
  ⟨hv, fun i hi => by
    have := (has_u (t := u16) rfl (hv.lane_has (i := i) (show i < 8 by omega))).1
    unfold pat; beta_reduce; omega⟩

theorem is_pat32 {N : Nat} (hN : N ≤ 4) {v : List Int} (hv : Reg u32 v) : Is u32 N v (fun i => ((pat v i : Nat) : Int)) :=
  ⟨hv, fun i hi => by
    have := (has_u (t := u32) rfl (hv.lane_has (i := i) (show i < 4 by omega))).1
    unfold pat; beta_reduce; omega⟩


/-- What `PromoteTo` gives for the `float16_t` bits `h`: the sign is kept and a finite value is converted exactly
(`2^-24 = 2^125 * 2^-149`). -/
def PromotedF16 (h r : Nat) : Prop :=
  r / 2 ^ 31 = h / 2 ^ 15 ∧
  (h % 2 ^ 15 < f16.inf → r % 2 ^ 31 < f32.inf ∧ f32.val (r % 2 ^ 31) = f16.val (h % 2 ^ 15) * 2 ^ 125)

/-- Result of one lane. -/
def promF16 (h : Nat) : Nat :=
  (h / 2 ^ 15 * 2 ^ 31) % 2 ^ 32 |||
    (if h / 2 ^ 10 &&& 0x1F = 0 then fmul f32 (ofInt f32 ((h &&& 0x3FF : Nat) : Int)) ((127 - 24) <<< 23)
     else (((h / 2 ^ 10 &&& 0x1F) + 112) % 2 ^ 32 * 2 ^ 23) % 2 ^ 32 ||| ((h &&& 0x3FF) * 2 ^ 13) % 2 ^ 32)

theorem run_prom_f16 (ar : Bool) {N : Nat} (hN : N ≤ 4) {v : List Int} {x : Nat → Nat}
    (hv : Is u16 N v (fun i => ((x i : Nat) : Int))) :
    Runs u32 N (PromoteF16 ar N v) (fun i => ((promF16 (x i) : Nat) : Int)) := by
  have l : u32 ∈ laneTys := by decide
  have u : u32.sgn = false := rfl
  have n : N ≤ cap u32 := hN
  unfold PromoteF16
  refine Runs.bind (xpromote hv (by decide) l (by decide) (by decide) n) fun b hb => ?_
  refine Runs.bind (nshr (k := 15) l u n ar (by decide) hb) fun sign hsign => ?_
  refine Runs.bind (nshr (k := 10) l u n ar (by decide) hb) fun e he => ?_
  refine Runs.bind (nset (k := 0x1F) l u n (by decide)) fun c1 hc1 => ?_
  refine Runs.bind (nand l u n he hc1) fun be hbe => ?_
  refine Runs.bind (nset (k := 0x3FF) l u n (by decide)) fun c3 hc3 => ?_
  refine Runs.bind (nand l u n hb hc3) fun m hm => ?_
  have hmi : Is i32 N (BitCast u32 i32 m) (fun i => ((x i &&& 0x3FF : Nat) : Int)) := by
    refine is_congr (is_bc_same hm (by decide) rfl n) fun i hi => ?_
    refine wrap_has' (by decide) ?_
    have : x i &&& 0x3FF ≤ 0x3FF := Nat.and_le_right
    constructor
    · show -2147483648 ≤ _; omega
    · show _ ≤ 2147483647; omega
  refine Runs.bind (xi2f hmi hN hN) fun mf hmf => ?_
  refine Runs.bind (nset (k := (127 - 24) <<< 23) l u n (by decide)) fun sc hsc => ?_
  refine Runs.bind (run_fmap2 (F := f32) (Or.inl rfl) hN (fun a b _ _ => fmul_lt std32 a b) hmf hsc) fun sub hsub => ?_
  refine Runs.bind (nset (k := 112) l u n (by decide)) fun c112 hc112 => ?_
  refine Runs.bind (nadd l u n hbe hc112) fun be32 hbe32 => ?_
  refine Runs.bind (nshl (k := 13) l u n (by decide) hm) fun m32 hm32 => ?_
  refine Runs.bind (nshl (k := 23) l u n (by decide) hbe32) fun es hes => ?_
  refine Runs.bind (nor l u n hes hm32) fun nrm hnrm => ?_
  refine RunsM.bind (xeq l n hbe (is_zero l N)) fun isub hisub => ?_
  refine Runs.bind (xite (t := u32) l n hisub hsub hnrm) fun b32 hb32 => ?_
  refine Runs.bind (nshl (k := 31) l u n (by decide) hsign) fun ss hss => ?_
  have hb32' : Is u32 N b32 (fun i => ((if x i / 2 ^ 10 &&& 0x1F = 0 then fmul f32 (ofInt f32 ((x i &&& 0x3FF : Nat) : Int)) ((127 - 24) <<< 23)
     else (((x i / 2 ^ 10 &&& 0x1F) + 112) % 2 ^ 32 * 2 ^ 23) % 2 ^ 32 ||| ((x i &&& 0x3FF) * 2 ^ 13) % 2 ^ 32 : Nat) : Int)) := by
    refine is_congr hb32 fun i hi => ?_
    beta_reduce
    by_cases c : x i / 2 ^ 10 &&& 0x1F = 0
    · rw [if_pos c, if_pos (by rw [c]; rfl)]
    · rw [if_neg c, if_neg (by simpa using c)]; rfl
  exact nor l u n hss hb32'

theorem prom_sub (m : Nat) (hm : m < 1024) :
    fmul f32 (ofInt f32 (m : Int)) ((127 - 24) <<< 23) < f32.inf ∧
    f32.val (fmul f32 (ofInt f32 (m : Int)) ((127 - 24) <<< 23)) = m * 2 ^ 125 := by
  have key : ∀ j, j ≤ 149 → ∃ c, c < f32.inf ∧ f32.val c = m * 2 ^ j := by
    intro j hj
    exact f32_scaled m hm j hj
  obtain ⟨c1, h1, v1⟩ := key 149 (by omega)
  obtain ⟨c2, h2, v2⟩ := key 125 (by omega)
  have hI : f32.inf = 255 * 2 ^ 23 := by decide
  have e1 : ofInt f32 (m : Int) = c1 := by
    unfold ofInt Fmt.pack
    rw [rneEncode_exact (F := f32) (c := c1) (by decide) (by decide) (Nat.le_of_lt h1) (by
      rw [v1, Nat.pow_zero, Nat.mul_one]; rfl)]
    have : ¬ (m : Int) < 0 := by omega
    simp [this]
  rw [e1]
  have hmag : f32.mag c1 = c1 := by
    unfold Fmt.mag; exact Nat.mod_eq_of_lt (by show c1 < 2 ^ 31; omega)
  have hneg : f32.neg c1 = false := by
    unfold Fmt.neg; exact decide_eq_false (by show ¬ 2 ^ 31 ≤ c1; omega)
  have kmag : f32.mag ((127 - 24) <<< 23) = 103 * 2 ^ 23 := by decide +kernel
  have kneg : f32.neg ((127 - 24) <<< 23) = false := by decide +kernel
  have kval : f32.val (103 * 2 ^ 23) = 2 ^ 125 := by decide +kernel
  have e2 : fmul f32 c1 ((127 - 24) <<< 23) = c2 := by
    unfold fmul Fmt.nan
    dsimp only
    rw [hmag, hneg, kmag, kneg, kval, v1]
    rw [if_neg (by simp; omega), if_neg (by omega)]
    rw [rneEncode_exact (F := f32) (c := c2) (by decide) (by decide) (Nat.le_of_lt h2) (by
      rw [v2, show f32.unit = 149 from by decide]; ring)]
    unfold Fmt.pack
    simp
  rw [e2]
  exact ⟨h2, v2⟩

/-- The result of one lane, also for the patterns of infinity and NaN: the mantissa and exponent fields are read as a
finite value. -/
theorem promF16_all (h : Nat) (hh : h < 2 ^ 16) :
    promF16 h < 2 ^ 32 ∧ promF16 h / 2 ^ 31 = h / 2 ^ 15 ∧ promF16 h % 2 ^ 31 < f32.inf ∧
      f32.val (promF16 h % 2 ^ 31) = f16.val (h % 2 ^ 15) * 2 ^ 125 := by
  have hI : f32.inf = 255 * 2 ^ 23 := by decide
  have b2 : h / 2 ^ 10 &&& 0x1F = h / 2 ^ 10 % 32 := by
    rw [show (0x1F : Nat) = 2 ^ 5 - 1 by decide, Nat.and_two_pow_sub_one_eq_mod]
  have b3 : h &&& 0x3FF = h % 2 ^ 10 := by
    rw [show (0x3FF : Nat) = 2 ^ 10 - 1 by decide, Nat.and_two_pow_sub_one_eq_mod]
  have main : ∃ c, c < f32.inf ∧ f32.val c = f16.val (h % 2 ^ 15) * 2 ^ 125 ∧ promF16 h = h / 2 ^ 15 * 2 ^ 31 + c := by
    have fin : ∀ c, c < f32.inf → (h / 2 ^ 15 * 2 ^ 31) % 2 ^ 32 ||| c = h / 2 ^ 15 * 2 ^ 31 + c := by
      intro c hc
      rw [Nat.mod_eq_of_lt (by omega), Nat.mul_comm, ← Nat.two_pow_add_eq_or_of_lt (by omega)]
    unfold promF16
    rw [b2, b3]
    by_cases h0 : h / 2 ^ 10 % 32 = 0
    · rw [if_pos h0]
      obtain ⟨p1, p2⟩ := prom_sub (h % 2 ^ 10) (by omega)
      refine ⟨_, p1, ?_, fin _ p1⟩
      rw [p2, show h % 2 ^ 15 = h % 2 ^ 10 by omega, val_small f16 _ (by show h % 2 ^ 10 ≤ 2 ^ 10; omega)]
    · rw [if_neg h0]
      have e1 : ((h / 2 ^ 10 % 32 + 112) % 2 ^ 32 * 2 ^ 23) % 2 ^ 32 = (h / 2 ^ 10 % 32 + 112) * 2 ^ 23 := by omega
      have e2 : (h % 2 ^ 10 * 2 ^ 13) % 2 ^ 32 = h % 2 ^ 10 * 2 ^ 13 := Nat.mod_eq_of_lt (by omega)
      have e3 : (h / 2 ^ 10 % 32 + 112) * 2 ^ 23 ||| h % 2 ^ 10 * 2 ^ 13
          = (h / 2 ^ 10 % 32 + 112) * 2 ^ 23 + h % 2 ^ 10 * 2 ^ 13 := by
        rw [Nat.mul_comm _ (2 ^ 23), ← Nat.two_pow_add_eq_or_of_lt (by omega)]
      rw [e1, e2, e3]
      refine ⟨_, ?_, ?_, fin _ ?_⟩
      · omega
      · have a1 := val_mul_add f32 (h / 2 ^ 10 % 32 + 112) (h % 2 ^ 10 * 2 ^ 13) (by omega) (by
          show _ ≤ 2 ^ 23; omega)
        have a2 := val_mul_add f16 (h / 2 ^ 10 % 32) (h % 2 ^ 10) (by omega) (by show _ ≤ 2 ^ 10; omega)
        have d : h % 2 ^ 15 = h / 2 ^ 10 % 32 * 2 ^ 10 + h % 2 ^ 10 := by omega
        have q1 : f32.p = 23 := rfl
        have q2 : f16.p = 10 := rfl
        rw [q1] at a1
        rw [q2] at a2
        rw [d, a1, a2]
        generalize h / 2 ^ 10 % 32 = e at *
        generalize h % 2 ^ 10 = m at *
        obtain ⟨k, rfl⟩ : ∃ k, e = k + 1 := ⟨e - 1, by omega⟩
        rw [show k + 1 + 112 - 1 = k + 112 by omega, show k + 1 - 1 = k by omega, Nat.pow_add]
        ring
      · omega
  obtain ⟨c, h1, h2, h3⟩ := main
  rw [h3]
  have : (h / 2 ^ 15 * 2 ^ 31 + c) % 2 ^ 31 = c := by omega
  rw [this]
  exact ⟨by omega, by omega, h1, h2⟩

/-- **C60.** `PromoteTo` `float16_t` to `float`: the sign is kept, a finite value is converted exactly. -/
theorem C60_promote_f16 (ar : Bool) {N : Nat} (hN : N ≤ 4) {v : List Int} (hv : Reg u16 v) :
    Lanes u32 N (PromoteF16 ar N v) (fun i r => PromotedF16 (pat v i) r.toNat) := by
  have hp : Is u16 N v (fun i => ((pat v i : Nat) : Int)) := is_pat16 (by omega) hv
  refine (run_prom_f16 ar hN hp).lanes hN fun i hi _ => ?_
  rw [Int.toNat_natCast]
  obtain ⟨_, h2, h3, h4⟩ := promF16_all (pat v i) (pat16_lt (N := N) (by omega) hv hi)
  exact ⟨h2, fun _ => ⟨h3, h4⟩⟩

/-- **C60, finding.** The patterns of infinity and NaN are not recognised: `PromoteTo` turns both into finite values (the
infinities into `±65536`), unlike `F32FromF16` (base.h:1442-1469). -/
theorem C60_finding_promote_f16_inf (ar : Bool) {N : Nat} (hN : N ≤ 4) {v : List Int} (hv : Reg u16 v) :
    Lanes u32 N (PromoteF16 ar N v) (fun i r => f16.inf ≤ pat v i % 2 ^ 15 →
      r.toNat % 2 ^ 31 < f32.inf ∧ (pat v i % 2 ^ 15 = f16.inf → f32.val (r.toNat % 2 ^ 31) = 65536 * 2 ^ 149)) := by
  have hp : Is u16 N v (fun i => ((pat v i : Nat) : Int)) := is_pat16 (by omega) hv
  refine (run_prom_f16 ar hN hp).lanes hN fun i hi _ hf => ?_
  rw [Int.toNat_natCast]
  obtain ⟨_, h2, h3, h4⟩ := promF16_all (pat v i) (pat16_lt (N := N) (by omega) hv hi)
  refine ⟨h3, fun e => ?_⟩
  rw [h4, e, show f16.val f16.inf = 2 ^ 40 by decide +kernel]
  norm_num

/-- **C60.** `PromoteTo` `float16_t` to `double`: the sign is kept, a finite value is converted exactly. -/
theorem C60_promote_f16_f64 (ar : Bool) {N : Nat} (hN : N ≤ 2) {v : List Int} (hv : Reg u16 v) :
    Lanes f64.ut N (PromoteF16ToF64 ar N v) (fun i r =>
      f64.neg r.toNat = decide (2 ^ 15 ≤ pat v i) ∧
      (pat v i % 2 ^ 15 < f16.inf → f64.Fin r.toNat ∧
        |f64.real r.toNat| = (f16.val (pat v i % 2 ^ 15) : ℚ) / 2 ^ 24)) := by
  have hp : Is u16 N v (fun i => ((pat v i : Nat) : Int)) := is_pat16 (by omega) hv
  obtain ⟨f, ef, hf⟩ := run_prom_f16 ar (by omega) hp
  unfold PromoteF16ToF64
  rw [ef]
  refine (C49_promote_f32 hN hf.1).mono fun i x hi hx => ?_
  have hpf : pat f i = promF16 (pat v i) := by
    show (lane f i).toNat = _
    rw [hf.2 i hi]; exact Int.toNat_natCast _
  obtain ⟨h1, h2, h3, h4⟩ := promF16_all (pat v i) (pat16_lt (N := N) (by omega) hv hi)
  have hlt := pat16_lt (N := N) (by omega) hv hi
  rw [hpf] at hx
  refine ⟨?_, fun hfin => ?_⟩
  · rw [hx.1]
    unfold Fmt.neg
    refine decide_eq_decide.2 ?_
    show 2 ^ 31 ≤ _ ↔ _
    omega
  · have hfin32 : f32.Fin (promF16 (pat v i)) := h3
    obtain ⟨a1, a2⟩ := hx.2.1 hfin32
    refine ⟨a1, ?_⟩
    rw [a2, abs_real' std32]
    have : f32.mag (promF16 (pat v i)) = promF16 (pat v i) % 2 ^ 31 := rfl
    rw [this, h4, show f32.unit = 149 from by decide]
    push_cast
    rw [show (2 : ℚ) ^ 149 = 2 ^ 125 * 2 ^ 24 by norm_num]
    generalize f16.val _ = V
    norm_num
    ring

end Emu
end Hwy
