import Verif.GenHalfSpec
import Verif.GenDotSpec2

/-!
# C60, part 2: `float` and `double` to `float16_t`
-/

namespace Hwy
namespace Emu
open CInt Flt

/-! ### Lanes of signed types given by their bits -/

theorem ofBits_wrap {t : Ty} (h : t ∈ laneTys) (b : BitVec t.bits) : t.ofBits b = t.wrap ((b.toNat : Nat) : Int) := by
  refine ofBits_inj t (bits_pos h) (has_ofBits t (bits_pos h) b) (has_wrap' h _) ?_
  show bitsOf t (t.ofBits b) = bitsOf t (t.wrap _)
  rw [bitsOf_wrap t (bits_pos h), nat_bits]
  unfold bitsOf
  rw [ofInt_ofBits, BitVec.ofNat_toNat, BitVec.setWidth_eq]

section
variable {t : Ty} (h : t ∈ laneTys) {N : Nat} (hN : N ≤ cap t) {a b c : List Int} {x y z : Nat → Nat}
include h

theorem and_wrap {x y : Nat} (hx : x < 2 ^ t.bits) (hy : y < 2 ^ t.bits) :
    t.ofBits (bitsOf t (t.wrap x) &&& bitsOf t (t.wrap y)) = t.wrap ((x &&& y : Nat) : Int) := by
  rw [bitsOf_wrap t (bits_pos h), bitsOf_wrap t (bits_pos h), nat_bits, nat_bits, ofBits_wrap h]
  rw [BitVec.toNat_and, BitVec.toNat_ofNat, BitVec.toNat_ofNat, Nat.mod_eq_of_lt hx, Nat.mod_eq_of_lt hy]

theorem or_wrap {x y : Nat} (hx : x < 2 ^ t.bits) (hy : y < 2 ^ t.bits) :
    t.ofBits (bitsOf t (t.wrap x) ||| bitsOf t (t.wrap y)) = t.wrap ((x ||| y : Nat) : Int) := by
  rw [bitsOf_wrap t (bits_pos h), bitsOf_wrap t (bits_pos h), nat_bits, nat_bits, ofBits_wrap h]
  rw [BitVec.toNat_or, BitVec.toNat_ofNat, BitVec.toNat_ofNat, Nat.mod_eq_of_lt hx, Nat.mod_eq_of_lt hy]

include hN in
theorem worand (ha : Is t N a (fun i => t.wrap ((x i : Nat) : Int))) (hb : Is t N b (fun i => t.wrap ((y i : Nat) : Int)))
    (hc : Is t N c (fun i => t.wrap ((z i : Nat) : Int))) (hx : ∀ i, i < N → x i < 2 ^ t.bits) (hy : ∀ i, i < N → y i < 2 ^ t.bits)
    (hz : ∀ i, i < N → z i < 2 ^ t.bits) :
    Runs t N (OrAnd t N a b c) (fun i => t.wrap ((x i ||| (y i &&& z i) : Nat) : Int)) := by
  unfold OrAnd
  refine Runs.bind (Runs.congr (G := fun i => t.wrap ((y i &&& z i : Nat) : Int)) (xand h hN hb hc) fun i hi =>
    and_wrap h (hy i hi) (hz i hi)) fun d hd => ?_
  exact Runs.congr (xor' h hN ha hd) fun i hi => or_wrap h (hx i hi) (Nat.lt_of_le_of_lt Nat.and_le_left (hy i hi))

end

/-- `~m & x` for `m = 2^k - 1`. -/
theorem andnot_low {x : Nat} (hx : x < 2 ^ 32) :
    u32.ofBits (~~~ bitsOf u32 ((255 : Nat) : Int) &&& bitsOf u32 (x : Int)) = ((x / 2 ^ 8 * 2 ^ 8 : Nat) : Int) := by
  rw [nat_bits, nat_bits]
  show (((~~~ BitVec.ofNat 32 255 &&& BitVec.ofNat 32 x).toNat : Nat) : Int) = _
  rw [BitVec.toNat_and, BitVec.toNat_ofNat, Nat.mod_eq_of_lt hx,
    show (~~~ BitVec.ofNat 32 255).toNat = (2 ^ 24 - 1) <<< 8 by decide, Nat.and_comm, and_highMask x 24 8 (by omega)]

/-! ### One lane -/

/-- `round_incr_hi9_bits`. -/
def incrHi9 (b : Nat) : Nat :=
  (255 &&& max (min (((b / 2 ^ 23 &&& 255) + 13) % 2 ^ 32) 255) 126) ||| b / 2 ^ 23 / 2 ^ 8 * 2 ^ 8
/-- `rounded_val`. -/
def roundedF16 (b : Nat) : Nat := fadd f32 b (incrHi9 b * 2 ^ 23 % 2 ^ 32)
/-- `f16_exp_bits` before the subtraction. -/
def expF16 (b : Nat) : Nat :=
  min (((incrHi9 b &&& 255) * 2 ^ 10 % 2 ^ 32 + (roundedF16 b &&& 0xFF <<< 10)) % 2 ^ 32) (157 <<< 10)
/-- `f16_unmasked_mant_bits`. -/
def mantF16 (b : Nat) : Nat :=
  (if expF16 b = 157 <<< 10 then 0 else roundedF16 b) ||| (if f32.nan (roundedF16 b) then 2 ^ 32 - 1 else 0)
/-- `f16_exp_mant_bits`. -/
def expMantF16 (b : Nat) : Nat := (expF16 b - 126 <<< 10) ||| (mantF16 b &&& 0x3FF)
/-- The result of one lane. -/
def demF16 (b : Nat) : Nat := (roundedF16 b / 2 ^ 31) * 2 ^ 15 + expMantF16 b

theorem incrHi9_eq (b : Nat) (hb : b < 2 ^ 32) :
    incrHi9 b = b / 2 ^ 31 * 2 ^ 8 + max (min (b % 2 ^ 31 / 2 ^ 23 + 13) 255) 126 := by
  unfold incrHi9
  have e1 : b / 2 ^ 23 &&& 255 = b % 2 ^ 31 / 2 ^ 23 := by
    rw [show (255 : Nat) = 2 ^ 8 - 1 by decide, Nat.and_two_pow_sub_one_eq_mod]; omega
  rw [e1, Nat.mod_eq_of_lt (show b % 2 ^ 31 / 2 ^ 23 + 13 < 2 ^ 32 by omega)]
  have e2 : ∀ x : Nat, x < 2 ^ 8 → 255 &&& x = x := by
    intro x hx
    rw [Nat.and_comm, show (255 : Nat) = 2 ^ 8 - 1 by decide, Nat.and_two_pow_sub_one_eq_mod, Nat.mod_eq_of_lt hx]
  rw [e2 _ (by omega), show b / 2 ^ 23 / 2 ^ 8 = b / 2 ^ 31 by omega, Nat.or_comm, Nat.mul_comm (b / 2 ^ 31),
    ← Nat.two_pow_add_eq_or_of_lt (by omega)]

theorem rne_scale (x t j : Nat) (ht : 1 ≤ t) : rne (x * 2 ^ j) (t + j) = rne x t := by
  unfold rne
  rw [if_neg (by omega), if_neg (by omega)]
  have e1 : x * 2 ^ j / 2 ^ (t + j) = x / 2 ^ t := by
    rw [Nat.pow_add, Nat.mul_div_mul_right _ _ (Nat.two_pow_pos j)]
  rw [e1]
  have e2 : 2 ^ (t + j - 1) = 2 ^ (t - 1) * 2 ^ j := by rw [← Nat.pow_add]; congr 1; omega
  rw [e2, Nat.pow_add, Nat.mul_comm (2 ^ t), ← Nat.div_div_eq_div_mul]
  congr 1
  have hp := Nat.two_pow_pos (t - 1)
  have hj := Nat.two_pow_pos j
  generalize 2 ^ (t - 1) = H at *
  have ho : x / 2 ^ t % 2 = 0 ∨ x / 2 ^ t % 2 = 1 := by omega
  rcases ho with o | o <;> rw [o]
  · rw [show x * 2 ^ j + 0 + H * 2 ^ j - 1 = (2 ^ j - 1) + 2 ^ j * (x + H - 1) by
      obtain ⟨q, hq⟩ : ∃ q, x + H = q + 1 := ⟨x + H - 1, by omega⟩
      have : x * 2 ^ j + H * 2 ^ j = (q + 1) * 2 ^ j := by rw [← hq]; ring
      rw [show x + H - 1 = q by omega]
      have : (q + 1) * 2 ^ j = 2 ^ j * q + 2 ^ j := by ring
      omega]
    rw [Nat.add_mul_div_left _ _ hj, Nat.div_eq_of_lt (by omega)]
    omega
  · rw [show x * 2 ^ j + 1 + H * 2 ^ j - 1 = (x + H) * 2 ^ j by
      have : (x + H) * 2 ^ j = x * 2 ^ j + H * 2 ^ j := by ring
      omega, Nat.mul_div_cancel _ hj]
    omega

/-- `rounded_val` of a value that is not NaN: the sign, the exponent `X` of the increment, and the value in units of the
last place of that binade. -/
theorem rounded_eq (b : Nat) (hb : b < 2 ^ 32) (hn : b % 2 ^ 31 ≤ f32.inf) {X : Nat}
    (hX : X = max (min (b % 2 ^ 31 / 2 ^ 23 + 13) 255) 126) :
    roundedF16 b = b / 2 ^ 31 * 2 ^ 31 + (X * 2 ^ 23 + if X = 255 then 0 else rne (f32.val (b % 2 ^ 31)) (X - 1)) := by
  have hI : f32.inf = 255 * 2 ^ 23 := by decide
  have hri : incrHi9 b * 2 ^ 23 % 2 ^ 32 = b / 2 ^ 31 * 2 ^ 31 + X * 2 ^ 23 := by
    rw [incrHi9_eq b hb, ← hX]; omega
  unfold roundedF16
  rw [hri]
  have m1 : f32.mag b = b % 2 ^ 31 := rfl
  have m2 : f32.mag (b / 2 ^ 31 * 2 ^ 31 + X * 2 ^ 23) = X * 2 ^ 23 := by
    show (b / 2 ^ 31 * 2 ^ 31 + X * 2 ^ 23) % 2 ^ 31 = _
    rw [Nat.mul_comm, Nat.mul_add_mod, Nat.mod_eq_of_lt (by omega)]
  have s2 : f32.neg (b / 2 ^ 31 * 2 ^ 31 + X * 2 ^ 23) = f32.neg b := by
    unfold Fmt.neg
    refine decide_eq_decide.2 ?_
    show 2 ^ 31 ≤ _ ↔ 2 ^ 31 ≤ _
    omega
  unfold fadd Fmt.nan
  rw [m1, m2, s2, if_neg (by simp; omega)]
  by_cases hx : X = 255
  · rw [if_pos hx]
    subst hx
    by_cases c : b % 2 ^ 31 = f32.inf
    · rw [if_pos c, if_neg (by simp)]; omega
    · rw [if_neg c, if_pos (by omega)]; omega
  · rw [if_neg hx, if_neg (by omega), if_neg (by omega)]
    have hv : f32.val (b % 2 ^ 31) < 2 ^ (23 + (X - 1)) := by
      have : f32.val (b % 2 ^ 31) < f32.val (X * 2 ^ 23 + 0) := val_strict f32 (by omega)
      rw [show X * 2 ^ 23 + 0 = X * 2 ^ f32.p + 0 from rfl, val_mul_add f32 X 0 (by omega) (Nat.zero_le _)] at this
      rw [Nat.pow_add]
      exact this
    have hX2 : f32.val (X * 2 ^ 23) = 2 ^ (23 + (X - 1)) := by
      have := val_mul_add f32 X 0 (by omega) (Nat.zero_le _)
      rw [Nat.add_zero] at this
      rw [show X * 2 ^ 23 = X * 2 ^ f32.p from rfl, this, Nat.pow_add]; rfl
    have hL := (local_of_rne f32 0 (2 ^ (23 + (X - 1)) + f32.val (b % 2 ^ 31)) X (f32.val (b % 2 ^ 31)) (X - 1) 0 (by decide)
      (by omega) (by omega) (by rw [if_neg (by omega)]; simp [f32]) hv).clamp (by decide)
    have hE := rneEncode_eq (F := f32) (by decide) (by decide) hL
    have hk : rne (f32.val (b % 2 ^ 31)) (X - 1) ≤ 2 ^ 23 := by
      have r3 := (rne_spec (f32.val (b % 2 ^ 31)) (X - 1) (by omega)).2.2.1
      rw [Nat.pow_add] at hv
      by_contra hcon
      have hP := Nat.two_pow_pos (X - 1)
      have := Nat.mul_le_mul_right (2 ^ (X - 1)) (show 2 * (2 ^ 23 + 1) ≤ 2 * rne (f32.val (b % 2 ^ 31)) (X - 1) by omega)
      have e : 2 * (2 ^ 23 + 1) * 2 ^ (X - 1) = 2 * (2 ^ 23 * 2 ^ (X - 1)) + 2 * 2 ^ (X - 1) := by ring
      omega
    rw [show X * 2 ^ f32.p = X * 2 ^ 23 from rfl] at hE
    rw [Nat.min_eq_left (by omega)] at hE
    have hpos : 0 < 2 ^ (23 + (X - 1)) := Nat.two_pow_pos _
    have hsv1 : f32.sval b = if f32.neg b then -(f32.val (b % 2 ^ 31) : Int) else f32.val (b % 2 ^ 31) := rfl
    have hsv2 : f32.sval (b / 2 ^ 31 * 2 ^ 31 + X * 2 ^ 23)
        = if f32.neg b then -((2 ^ (23 + (X - 1)) : Nat) : Int) else ((2 ^ (23 + (X - 1)) : Nat) : Int) := by
      unfold Fmt.sval; rw [m2, s2, hX2]
    dsimp only
    rw [hsv1, hsv2]
    generalize 2 ^ (23 + (X - 1)) = P at *
    generalize f32.val (b % 2 ^ 31) = V at *
    cases hneg : f32.neg b
    · have hsg : b / 2 ^ 31 = 0 := by
        unfold Fmt.neg at hneg
        have := of_decide_eq_false hneg
        change ¬ 2 ^ 31 ≤ b at this
        omega
      simp only [Bool.false_eq_true, if_false]
      rw [if_neg (by omega), show ((V : Int) + (P : Int)).natAbs = P + V by omega, hE,
        show decide ((V : Int) + (P : Int) < 0) = false from decide_eq_false (by omega), hsg]
      unfold Fmt.pack
      simp
    · have hsg : b / 2 ^ 31 = 1 := by
        unfold Fmt.neg at hneg
        have := of_decide_eq_true hneg
        change 2 ^ 31 ≤ b at this
        omega
      simp only [if_true]
      rw [if_neg (by omega), show (-(V : Int) + -(P : Int)).natAbs = P + V by omega, hE,
        show decide (-(V : Int) + -(P : Int) < 0) = true from decide_eq_true (by omega), hsg]
      unfold Fmt.pack
      simp only [if_true]
      show 2 ^ 31 + _ = _
      omega

theorem rounded_nan (b : Nat) (hn : f32.inf < b % 2 ^ 31) : roundedF16 b = 255 * 2 ^ 23 + 2 ^ 22 := by
  unfold roundedF16 fadd
  have : f32.nan b = true := decide_eq_true hn
  rw [this]
  simp only [Bool.true_or, if_true]
  decide

/-- The increments: at most `2048` units, and the same result as the scalar conversion. -/
theorem code_eq (b : Nat) (hn : b % 2 ^ 31 ≤ f32.inf) {X : Nat}
    (hX : X = max (min (b % 2 ^ 31 / 2 ^ 23 + 13) 255) 126) :
    (if X = 255 then 0 else rne (f32.val (b % 2 ^ 31)) (X - 1)) ≤ 2048 ∧
    min ((X - 126) * 1024 + if X = 255 then 0 else rne (f32.val (b % 2 ^ 31)) (X - 1)) 31744
      = f16Code (b % 2 ^ 31 / 2 ^ 23) (b % 2 ^ 23) := by
  have hI : f32.inf = 255 * 2 ^ 23 := by decide
  obtain ⟨e, he⟩ : ∃ e, b % 2 ^ 31 / 2 ^ 23 = e := ⟨_, rfl⟩
  obtain ⟨m, hm⟩ : ∃ m, b % 2 ^ 23 = m := ⟨_, rfl⟩
  have hb : b % 2 ^ 31 = e * 2 ^ 23 + m := by omega
  have hm2 : m < 2 ^ 23 := by omega
  rw [he] at hX ⊢
  rw [hm, hb]
  have hr13 : rne m 13 ≤ 1024 := by
    have r3 := (rne_spec m 13 (by decide)).2.2.1
    omega
  have hr13' : rne (2 ^ 23 + m) 13 = 1024 + rne m 13 := rne_add 10 m 13 (by decide) (by decide)
  by_cases hx : X = 255
  · rw [if_pos hx, hx]
    refine ⟨by omega, ?_⟩
    unfold f16Code
    rw [if_neg (by omega), if_neg (by omega), if_neg (by omega)]
    omega
  · rw [if_neg hx]
    have hv : 1 ≤ e → f32.val (e * 2 ^ 23 + m) = (2 ^ 23 + m) * 2 ^ (e - 1) := fun h =>
      val_mul_add f32 e m h (by show m ≤ 2 ^ 23; omega)
    unfold f16Code
    rw [if_neg (by omega)]
    by_cases h1 : e < 102
    · rw [if_pos h1]
      have hX' : X = 126 := by omega
      subst hX'
      have hlt : f32.val (e * 2 ^ 23 + m) < 2 ^ 124 := by
        have : f32.val (e * 2 ^ 23 + m) < f32.val (102 * 2 ^ 23) := val_strict f32 (by omega)
        have e1 : f32.val (102 * 2 ^ 23) = 2 ^ 124 := by decide +kernel
        omega
      have r0 : rne (f32.val (e * 2 ^ 23 + m)) (126 - 1) = 0 := by
        unfold rne
        rw [if_neg (by decide)]
        generalize f32.val (e * 2 ^ 23 + m) = V at *
        rw [Nat.div_eq_of_lt (show V < 2 ^ (126 - 1) by omega)]
        refine Nat.div_eq_of_lt ?_
        omega
      rw [r0]
      omega
    · rw [if_neg h1]
      by_cases h2 : e ≤ 112
      · rw [if_pos h2]
        have hX' : X = 126 := by omega
        subst hX'
        rw [hv (by omega), show 126 - 1 = (126 - e) + (e - 1) by omega, rne_scale _ _ _ (by omega)]
        have r3 := (rne_spec (2 ^ 23 + m) (126 - e) (by omega)).2.2.1
        have h14 : 2 ^ 14 ≤ 2 ^ (126 - e) := Nat.pow_le_pow_right (by decide) (by omega)
        have hle : rne (2 ^ 23 + m) (126 - e) ≤ 1024 := by
          by_contra hcon
          have := Nat.mul_le_mul_right (2 ^ (126 - e)) (show 2 * 1025 ≤ 2 * rne (2 ^ 23 + m) (126 - e) by omega)
          omega
        omega
      · rw [if_neg h2]
        have hX' : X = e + 13 := by omega
        subst hX'
        rw [hv (by omega), show e + 13 - 1 = 13 + (e - 1) by omega, rne_scale _ _ _ (by decide), hr13']
        omega

theorem and_field (x : Nat) : x &&& 0xFF <<< 10 = x / 2 ^ 10 % 2 ^ 8 * 2 ^ 10 := by
  refine Nat.eq_of_testBit_eq fun i => ?_
  rw [Nat.testBit_and, Nat.testBit_shiftLeft, Nat.testBit_mul_two_pow, Nat.testBit_mod_two_pow, Nat.testBit_div_two_pow,
    show (0xFF : Nat) = 2 ^ 8 - 1 by decide, Nat.testBit_two_pow_sub_one]
  by_cases h : 10 ≤ i
  · rw [show i - 10 + 10 = i by omega]
    simp [h, Bool.and_comm]
  · simp [h]

/-- One lane: the scalar conversion, except that the sign of a NaN is not specified. -/
theorem demF16_spec (b : Nat) (hb : b < 2 ^ 32) :
    expMantF16 b < 2 ^ 15 ∧ 126 <<< 10 ≤ expF16 b ∧ roundedF16 b < 2 ^ 32 ∧
    (b % 2 ^ 31 ≤ f32.inf → demF16 b = f16FromF32 b) ∧ (f32.inf < b % 2 ^ 31 → demF16 b % 2 ^ 15 > f16.inf) := by
  have hI : f32.inf = 255 * 2 ^ 23 := by decide
  have hI6 : f16.inf = 31744 := by decide
  have a255 : incrHi9 b &&& 255 = max (min (b % 2 ^ 31 / 2 ^ 23 + 13) 255) 126 := by
    rw [incrHi9_eq b hb, show (255 : Nat) = 2 ^ 8 - 1 by decide, Nat.and_two_pow_sub_one_eq_mod]; omega
  have a3 : ∀ x : Nat, x &&& 0x3FF = x % 2 ^ 10 := by
    intro x
    rw [show (0x3FF : Nat) = 2 ^ 10 - 1 by decide, Nat.and_two_pow_sub_one_eq_mod]
  have hexp : expF16 b = min (max (min (b % 2 ^ 31 / 2 ^ 23 + 13) 255) 126 * 1024 + roundedF16 b / 2 ^ 10 % 2 ^ 8 * 2 ^ 10) (157 * 1024) := by
    unfold expF16
    rw [a255, and_field, show 157 <<< 10 = 157 * 1024 by decide]
    omega
  have hlo : 126 <<< 10 ≤ expF16 b := by
    rw [hexp, show 126 <<< 10 = 126 * 1024 by decide]; omega
  rcases Nat.lt_or_ge f32.inf (b % 2 ^ 31) with hn | hn
  · have hr := rounded_nan b hn
    have he : expF16 b = 157 * 1024 := by rw [hexp, hr]; omega
    have hm : mantF16 b = 2 ^ 32 - 1 := by
      unfold mantF16
      rw [he, hr, if_pos (by decide), if_pos (by decide)]; decide
    have hem : expMantF16 b = 32767 := by
      unfold expMantF16; rw [he, hm]; decide
    refine ⟨by omega, hlo, by omega, fun h => by omega, fun _ => ?_⟩
    unfold demF16
    rw [hem]
    omega
  · obtain ⟨X, hX⟩ : ∃ X, X = max (min (b % 2 ^ 31 / 2 ^ 23 + 13) 255) 126 := ⟨_, rfl⟩
    have hr := rounded_eq b hb hn hX
    obtain ⟨c1, c2⟩ := code_eq b hn hX
    rw [← hX] at hexp
    have hk255 : X = 255 → (if X = 255 then 0 else rne (f32.val (b % 2 ^ 31)) (X - 1)) = 0 := fun h => by rw [if_pos h]
    generalize (if X = 255 then 0 else rne (f32.val (b % 2 ^ 31)) (X - 1)) = k at *
    have hXr : 126 ≤ X ∧ X ≤ 255 := by omega
    have hk1 : roundedF16 b / 2 ^ 10 % 2 ^ 8 * 2 ^ 10 = k / 1024 * 1024 := by rw [hr]; omega
    have hk2 : roundedF16 b % 2 ^ 10 = k % 1024 := by rw [hr]; omega
    have hsg' : roundedF16 b / 2 ^ 31 = b / 2 ^ 31 := by rw [hr]; omega
    have hnan : f32.nan (roundedF16 b) = false := by
      refine decide_eq_false ?_
      show ¬ f32.inf < roundedF16 b % 2 ^ 31
      rw [hr]; omega
    have key : expMantF16 b = min ((X - 126) * 1024 + k) 31744 := by
      unfold expMantF16 mantF16
      rw [a3, show 157 <<< 10 = 157 * 1024 by decide, show 126 <<< 10 = 126 * 1024 by decide, hnan]
      simp only [Bool.false_eq_true, if_false, Nat.or_zero]
      rw [hk1] at hexp
      by_cases hinf : expF16 b = 157 * 1024
      · rw [if_pos hinf, hinf]
        simp only [Nat.zero_mod, Nat.or_zero]
        omega
      · rw [if_neg hinf, hk2]
        have e1 : expF16 b - 126 * 1024 = 2 ^ 10 * (X - 126 + k / 1024) := by omega
        rw [e1, ← Nat.two_pow_add_eq_or_of_lt (by omega)]
        omega
    have hf := f16FromF32_split b hb
    refine ⟨by omega, hlo, by omega, fun _ => ?_, fun h => by omega⟩
    unfold demF16
    rw [key, c2, hsg', hf]

/-! ### The register -/

theorem run_incr (ar : Bool) {N : Nat} (hN : N ≤ 4) {v : List Int} {x : Nat → Nat}
    (hv : Is u32 N v (fun i => ((x i : Nat) : Int))) :
    Runs u32 N (roundIncrHi9 ar N v) (fun i => ((incrHi9 (x i) : Nat) : Int)) := by
  have l : u32 ∈ laneTys := by decide
  have u : u32.sgn = false := rfl
  have n : N ≤ cap u32 := hN
  unfold roundIncrHi9
  refine Runs.bind (nshr (k := 23) l u n ar (by decide) hv) fun hi9 hhi9 => ?_
  refine Runs.bind (nset (k := 13) l u n (by decide)) fun k13 hk13 => ?_
  refine Runs.bind (nset (k := 126) l u n (by decide)) fun k126 hk126 => ?_
  refine Runs.bind (nset (k := 255) l u n (by decide)) fun k255 hk255 => ?_
  refine Runs.bind (nand l u n hhi9 hk255) fun e he => ?_
  refine Runs.bind (nadd l u n he hk13) fun s hs => ?_
  refine Runs.bind (nmin l n hs hk255) fun m hm => ?_
  refine Runs.bind (nmax l n hm hk126) fun y hy => ?_
  unfold BitwiseIfThenElse
  refine Runs.bind (nand l u n hk255 hy) fun p hp => ?_
  refine Runs.bind (Runs.congr (G := fun i => ((x i / 2 ^ 23 / 2 ^ 8 * 2 ^ 8 : Nat) : Int)) (xandnot l n hk255 hhi9) fun i hi => ?_) fun q hq => ?_
  · exact andnot_low (nat_lt u n hhi9 hi)
  · exact nor l u n hp hq

end Emu
end Hwy
