import Verif.GenDotSpec

/-!
# C55: sums of four products
-/

namespace Hwy
namespace Emu
open CInt Finset

set_option linter.unusedSectionVars false

theorem wrap_i16 (x : Int) : i16.wrap x = (x + 32768) % 65536 - 32768 := by
  unfold Ty.wrap
  rw [if_pos (by decide)]
  norm_num [i16]
theorem wrap_u16 (x : Int) : u16.wrap x = x % 65536 := by
  unfold Ty.wrap
  rw [if_neg (by decide)]
  norm_num [u16]
theorem wrap_i32 (x : Int) : i32.wrap x = (x + 2147483648) % 4294967296 - 2147483648 := by
  unfold Ty.wrap
  rw [if_pos (by decide)]
  norm_num [i32]
theorem wrap_i64 (x : Int) : i64.wrap x = (x + 9223372036854775808) % 18446744073709551616 - 9223372036854775808 := by
  unfold Ty.wrap
  rw [if_pos (by decide)]
  norm_num [i64]

theorem p8 : (2 : Int) ^ Int.toNat 8 = 256 := by decide
theorem p32 : (2 : Int) ^ Int.toNat 32 = 4294967296 := by decide

theorem and_255 (x : Int) : i16.ofBits (bitsOf i16 x &&& bitsOf i16 255) = x % 256 := by
  rw [ofBits_eq_iff (t := i16) (N := 0) (by decide) (by decide) (show (-32768 : Int) ≤ x % 256 ∧ x % 256 ≤ (32767 : Int) by omega)]
  apply BitVec.eq_of_toNat_eq
  have e : (bitsOf i16 255).toNat = 2 ^ 8 - 1 := by decide
  rw [BitVec.toNat_and, e, Nat.and_two_pow_sub_one_eq_mod]
  unfold bitsOf
  rw [BitVec.toNat_ofInt, BitVec.toNat_ofInt]
  show (x % 65536).toNat % 256 = (x % 256 % 65536).toNat
  omega

section
variable {N : Nat} (hN : N ≤ 8) (ar : Bool) {a : List Int} {F : Nat → Int}
include hN

theorem even_u8 (ha : Is u8 (2 * N) a F) : Runs i16 N (do And i16 N (BitCast u8 i16 a) (← Set i16 N 255))
    (fun i => F (2 * i)) := by
  refine Runs.congr (Runs.bind (xset (t := i16) (by decide) hN (x := 255) (by decide)) fun c hc =>
    xand (by decide) hN (is_bc_wide ha (by decide) (by decide) rfl hN) hc) fun i hi => ?_
  have f1 : 0 ≤ F (2 * i) ∧ F (2 * i) ≤ 255 := ha.has (show 2 * N ≤ 16 by omega) (by omega)
  beta_reduce
  rw [and_255, wrap_i16]
  norm_num [u8]
  omega

theorem odd_u8 (ha : Is u8 (2 * N) a F) :
    Runs i16 N (do return BitCast u16 i16 (← ShiftRight ar u16 N 8 (BitCast u8 u16 a))) (fun i => F (2 * i + 1)) := by
  refine Runs.congr (Runs.bind (xshr (t := u16) (k := 8) (by decide) hN ar (by decide) (by decide)
    (is_bc_wide ha (by decide) (by decide) rfl hN)) fun c hc =>
    Runs.ret (is_bc_same hc (by decide) rfl hN)) fun i hi => ?_
  have f1 : 0 ≤ F (2 * i) ∧ F (2 * i) ≤ 255 := ha.has (show 2 * N ≤ 16 by omega) (by omega)
  have f2 : 0 ≤ F (2 * i + 1) ∧ F (2 * i + 1) ≤ 255 := ha.has (show 2 * N ≤ 16 by omega) (by omega)
  beta_reduce
  rw [wrap_i16, wrap_u16, p8]
  norm_num [u8]
  omega

theorem even_i8 (ha : Is i8 (2 * N) a F) :
    Runs i16 N (do ShiftRight ar i16 N 8 (← ShiftLeft i16 N 8 (BitCast i8 i16 a))) (fun i => F (2 * i)) := by
  refine Runs.congr (Runs.bind (xshl (t := i16) (k := 8) (by decide) hN (by decide) (by decide)
    (is_bc_wide ha (by decide) (by decide) rfl hN)) fun c hc =>
    xshr (by decide) hN ar (by decide) (by decide) hc) fun i hi => ?_
  have f1 : -128 ≤ F (2 * i) ∧ F (2 * i) ≤ 127 := ha.has (show 2 * N ≤ 16 by omega) (by omega)
  have f2 : -128 ≤ F (2 * i + 1) ∧ F (2 * i + 1) ≤ 127 := ha.has (show 2 * N ≤ 16 by omega) (by omega)
  beta_reduce
  rw [wrap_i16, wrap_i16, p8]
  norm_num [i8]
  omega

theorem odd_i8 (ha : Is i8 (2 * N) a F) :
    Runs i16 N (ShiftRight ar i16 N 8 (BitCast i8 i16 a)) (fun i => F (2 * i + 1)) := by
  refine Runs.congr (xshr (t := i16) (k := 8) (by decide) hN ar (by decide) (by decide)
    (is_bc_wide ha (by decide) (by decide) rfl hN)) fun i hi => ?_
  have f1 : -128 ≤ F (2 * i) ∧ F (2 * i) ≤ 127 := ha.has (show 2 * N ≤ 16 by omega) (by omega)
  have f2 : -128 ≤ F (2 * i + 1) ∧ F (2 * i + 1) ≤ 127 := ha.has (show 2 * N ≤ 16 by omega) (by omega)
  beta_reduce
  rw [wrap_i16, p8]
  norm_num [i8]
  omega
end

/-- The exact sum of the four products that lane `i` of the result receives. -/
def quad (a b : List Int) (i : Nat) : Int := ∑ k ∈ Finset.range 4, lane a (4 * i + k) * lane b (4 * i + k)

theorem quad_eq (a b : List Int) (i : Nat) : quad a b i = lane a (2 * (2 * i)) * lane b (2 * (2 * i)) +
    lane a (2 * (2 * i) + 1) * lane b (2 * (2 * i) + 1) + lane a (2 * (2 * i + 1)) * lane b (2 * (2 * i + 1)) +
    lane a (2 * (2 * i + 1) + 1) * lane b (2 * (2 * i + 1) + 1) := by
  unfold quad
  rw [show 2 * (2 * i) = 4 * i by omega, show 2 * (2 * i + 1) = 4 * i + 2 by omega]
  simp [Finset.sum_range_succ]

theorem wrap3 (t : Ty) (s x y : Int) : t.wrap (s + t.wrap (t.wrap x + t.wrap y)) ≡ s + (x + y) [ZMOD 2 ^ t.bits] :=
  (modEq_wrap _ _).trans (Int.ModEq.add_left _ ((modEq_wrap _ _).trans ((modEq_wrap _ _).add (modEq_wrap _ _))))

section
variable {N : Nat} (hN : N ≤ 4) (ar : Bool) {a b sum : List Int}
include hN

/-- `SumOfMulQuadAccumulate` of `int8_t`. -/
theorem C55_sum_of_mul_quad_i8 (ha : Reg i8 a) (hb : Reg i8 b) (hs : Reg i32 sum) :
    Lanes i32 N (SumOfMulQuadI8 ar N a b sum) (fun i r => r ≡ lane sum i + quad a b i [ZMOD 2 ^ 32]) := by
  have h : i32 ∈ laneTys := by decide
  refine Runs.lanes (Runs.bind (zeven (tF := i8) (N := 2 * N) (by decide) (show 2 * N ≤ 8 by omega) ar (Is.refl ha)) fun a0 ha0 =>
    Runs.bind (zeven (tF := i8) (N := 2 * N) (by decide) (show 2 * N ≤ 8 by omega) ar (Is.refl hb)) fun b0 hb0 =>
    Runs.bind (zodd (tF := i8) (N := 2 * N) (by decide) (show 2 * N ≤ 8 by omega) ar (Is.refl ha)) fun a1 ha1 =>
    Runs.bind (zodd (tF := i8) (N := 2 * N) (by decide) (show 2 * N ≤ 8 by omega) ar (Is.refl hb)) fun b1 hb1 =>
    Runs.bind (zwmpa (tF := i16) (by decide) hN ar ha0 hb0) fun p hp =>
    Runs.bind (zwmpa (tF := i16) (by decide) hN ar ha1 hb1) fun q hq =>
    Runs.bind (xadd h hN hp hq) fun s hs' => xadd h hN (Is.refl hs) hs') hN fun i hi _ => ?_
  beta_reduce
  refine (wrap3 i32 _ _ _).trans ?_
  rw [quad_eq]
  ring_nf
  rfl

/-- `SumOfMulQuadAccumulate` of `uint8_t`. -/
theorem C55_sum_of_mul_quad_u8 (ha : Reg u8 a) (hb : Reg u8 b) (hs : Reg u32 sum) :
    Lanes u32 N (SumOfMulQuadU8 ar N a b sum) (fun i r => r ≡ lane sum i + quad a b i [ZMOD 2 ^ 32]) := by
  have h : u32 ∈ laneTys := by decide
  obtain ⟨c, ec, hc⟩ := xset (t := i16) (N := 2 * N) (by decide) (show 2 * N ≤ 8 by omega) (x := 255) (by decide)
  have ev : ∀ v, Reg u8 v → Runs i16 (2 * N) (And i16 (2 * N) (BitCast u8 i16 v) c) (fun i => lane v (2 * i)) := by
    intro v hv
    have := even_u8 (N := 2 * N) (by omega) (Is.refl hv)
    rw [ec, ok_bind'] at this
    exact this
  have od : ∀ v, Reg u8 v → ∃ r, ShiftRight ar u16 (2 * N) 8 (BitCast u8 u16 v) = .ok r ∧
      Is i16 (2 * N) (BitCast u16 i16 r) (fun i => lane v (2 * i + 1)) := by
    intro v hv
    obtain ⟨r, e, hr⟩ := xshr (t := u16) (k := 8) (by decide) (show 2 * N ≤ 8 by omega) ar (by decide) (by decide)
      (is_bc_wide (Is.refl (N := 2 * (2 * N)) hv) (by decide) (by decide) rfl (show 2 * N ≤ 8 by omega))
    obtain ⟨w, e2, hw⟩ := odd_u8 (N := 2 * N) (by omega) ar (Is.refl hv)
    rw [e, ok_bind'] at e2
    cases e2
    exact ⟨r, e, hw⟩
  obtain ⟨a0, ea0, ha0⟩ := ev a ha
  obtain ⟨b0, eb0, hb0⟩ := ev b hb
  obtain ⟨a1, ea1, ha1⟩ := od a ha
  obtain ⟨b1, eb1, hb1⟩ := od b hb
  obtain ⟨p, ep, hp⟩ := zwmpa (tF := i16) (by decide) hN ar ha0 hb0
  obtain ⟨q, eq, hq⟩ := zwmpa (tF := i16) (by decide) hN ar ha1 hb1
  have fin := Runs.bind (xadd h hN (is_bc_same hp h rfl hN) (is_bc_same hq h rfl hN)) fun s hs' => xadd h hN (Is.refl hs) hs'
  unfold SumOfMulQuadU8
  rw [ec, ok_bind', ea0, ok_bind', eb0, ok_bind', ea1, ok_bind', eb1, ok_bind']
  dsimp only
  rw [ep, ok_bind', eq, ok_bind']
  refine Runs.lanes fin hN fun i hi _ => ?_
  beta_reduce
  refine (wrap3 u32 _ _ _).trans ?_
  refine Int.ModEq.trans (Int.ModEq.add_left _ ((modEq_wrap i32 _).add (modEq_wrap i32 _))) ?_
  rw [quad_eq]
  ring_nf
  rfl

/-- `SumOfMulQuadAccumulate` of `uint8_t` by `int8_t`. -/
theorem C55_sum_of_mul_quad_u8_i8 (ha : Reg u8 a) (hb : Reg i8 b) (hs : Reg i32 sum) :
    Lanes i32 N (SumOfMulQuadU8I8 ar N a b sum) (fun i r => r ≡ lane sum i + quad a b i [ZMOD 2 ^ 32]) := by
  have h : i32 ∈ laneTys := by decide
  have h8 : 2 * N ≤ 8 := by omega
  obtain ⟨c, ec, hc⟩ := xset (t := i16) (N := 2 * N) (by decide) h8 (x := 255) (by decide)
  obtain ⟨a0, ea0, ha0⟩ := even_u8 (N := 2 * N) h8 (Is.refl ha)
  rw [ec, ok_bind'] at ea0
  obtain ⟨s, es, hs0⟩ := xshl (t := i16) (k := 8) (by decide) h8 (by decide) (by decide)
    (is_bc_wide (Is.refl (N := 2 * (2 * N)) hb) (by decide) (by decide) rfl h8)
  obtain ⟨b0, eb0, hb0⟩ := even_i8 (N := 2 * N) h8 ar (Is.refl hb)
  rw [es, ok_bind'] at eb0
  obtain ⟨r, er, hr⟩ := xshr (t := u16) (k := 8) (by decide) h8 ar (by decide) (by decide)
    (is_bc_wide (Is.refl (N := 2 * (2 * N)) ha) (by decide) (by decide) rfl h8)
  obtain ⟨w, e2, ha1⟩ := odd_u8 (N := 2 * N) h8 ar (Is.refl ha)
  rw [er, ok_bind'] at e2
  cases e2
  obtain ⟨b1, eb1, hb1⟩ := odd_i8 (N := 2 * N) h8 ar (Is.refl hb)
  obtain ⟨p, ep, hp⟩ := zwmpa (tF := i16) (by decide) hN ar ha0 hb0
  obtain ⟨q, eq, hq⟩ := zwmpa (tF := i16) (by decide) hN ar ha1 hb1
  have fin := Runs.bind (xadd h hN hp hq) fun s hs' => xadd h hN (Is.refl hs) hs'
  unfold SumOfMulQuadU8I8
  rw [ec, ok_bind', ea0, ok_bind', es, ok_bind', eb0, ok_bind', er, ok_bind', eb1, ok_bind', ep, ok_bind', eq, ok_bind']
  refine Runs.lanes fin hN fun i hi _ => ?_
  beta_reduce
  refine (wrap3 i32 _ _ _).trans ?_
  rw [quad_eq]
  ring_nf
  rfl
end

theorem pair_fix {X : Int} (q : (i32.wrap X = X ∧ -2147483648 < X ∧ X ≤ 2147483647) ∨ (X = 2147483648 ∧ i32.wrap X = -2147483648)) :
    ((-2147483648 ≤ i32.wrap X ∧ i32.wrap X ≤ 2147483647) ∧ i32.wrap X ≠ -2147483648 ∧ X = i32.wrap X) ∨
    ((-2147483648 ≤ i32.wrap X ∧ i32.wrap X ≤ 2147483647) ∧ i32.wrap X = -2147483648 ∧ X = 2147483648) := by
  omega

section
variable {N : Nat} (hN : N ≤ 2) (ar : Bool) {a b sum : List Int}
include hN

/-- `SumOfMulQuadAccumulate` of `int16_t`, including the pairs whose sum is `2^31`. -/
theorem C55_sum_of_mul_quad_i16 (ha : Reg i16 a) (hb : Reg i16 b) (hs : Reg i64 sum) :
    Lanes i64 N (SumOfMulQuadI16 ar N a b sum) (fun i r => r ≡ lane sum i + quad a b i [ZMOD 2 ^ 64]) := by
  have h : i64 ∈ laneTys := by decide
  have h3 : i32 ∈ laneTys := by decide
  have h4 : 2 * N ≤ 4 := by omega
  refine Runs.lanes (Runs.bind (zwmpa (tF := i16) (N := 2 * N) (by decide) h4 ar (Is.refl ha) (Is.refl hb)) fun s hs0 =>
    Runs.bind (xset h3 h4 (x := -2147483648) (by decide)) fun c hc => RunsM.bind (xeq h3 h4 hs0 hc) fun m hm =>
    Runs.bind (xset h hN (x := -4294967296) (by decide)) fun hi hhi =>
    Runs.bind (xshl h hN (k := 32) (by decide) (by decide) (is_bc_wide (is_vecFromMask h3 hm) h3 h rfl hN)) fun p0z hp0z =>
    Runs.bind (xand h hN (is_bc_wide (is_vecFromMask h3 hm) h3 h rfl hN) hhi) fun p1z hp1z =>
    Runs.bind (xshl h hN (k := 32) (by decide) (by decide) (is_bc_wide hs0 h3 h rfl hN)) fun l hl =>
    Runs.bind (xshr h hN (k := 32) ar (by decide) (by decide) hl) fun l2 hl2 =>
    Runs.bind (xandnot h hN hp0z hl2) fun p0 hp0 =>
    Runs.bind (xshr h hN (k := 32) ar (by decide) (by decide) (is_bc_wide hs0 h3 h rfl hN)) fun u hu =>
    Runs.bind (xandnot h hN hp1z hu) fun p1 hp1 =>
    Runs.bind (xadd h hN hp0 hp1) fun q hq => xadd h hN (Is.refl hs) hq) hN fun i hi _ => ?_
  beta_reduce
  have r : ∀ v, Reg i16 v → ∀ j, j < 8 → -32768 ≤ lane v j ∧ lane v j ≤ 32767 := fun v hv j hj => rng16i le_rfl hv hj
  rw [quad_eq]
  have q0 := pair16 (r a ha (2 * (2 * i)) (by omega)) (r b hb (2 * (2 * i)) (by omega))
    (r a ha (2 * (2 * i) + 1) (by omega)) (r b hb (2 * (2 * i) + 1) (by omega))
  have q1 := pair16 (r a ha (2 * (2 * i + 1)) (by omega)) (r b hb (2 * (2 * i + 1)) (by omega))
    (r a ha (2 * (2 * i + 1) + 1) (by omega)) (r b hb (2 * (2 * i + 1) + 1) (by omega))
  generalize lane a (2 * (2 * i)) * lane b (2 * (2 * i)) + lane a (2 * (2 * i) + 1) * lane b (2 * (2 * i) + 1) = X at q0 ⊢
  rw [add_assoc X]
  generalize lane a (2 * (2 * i + 1)) * lane b (2 * (2 * i + 1)) +
    lane a (2 * (2 * i + 1) + 1) * lane b (2 * (2 * i + 1) + 1) = Y at q1 ⊢
  have q0' := pair_fix q0
  have q1' := pair_fix q1
  have R0 : i16.wide = i32 := rfl
  rw [R0]
  generalize i32.wrap X = x at q0' ⊢
  generalize i32.wrap Y = y at q1' ⊢
  refine (modEq_wrap _ _).trans (Int.ModEq.add_left _ ((modEq_wrap _ _).trans ?_))
  rw [show (2 : Int) ^ i32.bits = 4294967296 by decide, p32]
  have e1 : i64.wrap (i64.wrap (x % 4294967296 + 4294967296 * y) * 4294967296) / 4294967296 = x := by
    rw [wrap_i64, wrap_i64]; omega
  have e2 : i64.wrap (x % 4294967296 + 4294967296 * y) / 4294967296 = y := by
    rw [wrap_i64]; omega
  rw [e1, e2]
  have z0 : ∀ x : Int, i64.Has x → i64.ofBits (~~~ bitsOf i64 0 &&& bitsOf i64 x) = x := by
    intro x hx
    rw [ofBits_eq_iff h hN hx]
    have key : ∀ w : BitVec 64, ~~~ (0 : BitVec 64) &&& w = w := by
      intro w; rw [show ~~~ (0 : BitVec 64) = BitVec.allOnes 64 by decide, BitVec.allOnes_and]
    exact key _
  have z1 : i64.ofBits (~~~bitsOf i64 (-4294967296) &&& bitsOf i64 (-2147483648)) = 2147483648 := by decide +kernel
  have hx64 : i64.Has x := show (-9223372036854775808 : Int) ≤ x ∧ x ≤ 9223372036854775807 by omega
  have hy64 : i64.Has y := show (-9223372036854775808 : Int) ≤ y ∧ y ≤ 9223372036854775807 by omega
  have e3 : i32.wrap (-1) = -1 := by decide +kernel
  rw [e3]
  rcases q0' with ⟨-, k1, k2⟩ | ⟨-, k1, k2⟩ <;> rcases q1' with ⟨-, k3, k4⟩ | ⟨-, k3, k4⟩
  · rw [if_neg (by simpa using k1), if_neg (by simpa using k3)]
    rw [show i64.wrap (i64.wrap (0 % 4294967296 + 4294967296 * 0) * 4294967296) = 0 by decide +kernel,
      show i64.ofBits (bitsOf i64 (i64.wrap (0 % 4294967296 + 4294967296 * 0)) &&& bitsOf i64 (-4294967296)) = 0 by decide +kernel,
      z0 x hx64, z0 y hy64, k2, k4]
  · rw [if_neg (by simpa using k1), if_pos (by simpa using k3)]
    rw [show i64.wrap (i64.wrap (0 % 4294967296 + 4294967296 * -1) * 4294967296) = 0 by decide +kernel,
      show i64.ofBits (bitsOf i64 (i64.wrap (0 % 4294967296 + 4294967296 * -1)) &&& bitsOf i64 (-4294967296)) = -4294967296
        by decide +kernel, z0 x hx64, k3, ← k2, k4, z1]
  · rw [if_pos (by simpa using k1), if_neg (by simpa using k3)]
    rw [show i64.wrap (i64.wrap (-1 % 4294967296 + 4294967296 * 0) * 4294967296) = -4294967296 by decide +kernel,
      show i64.ofBits (bitsOf i64 (i64.wrap (-1 % 4294967296 + 4294967296 * 0)) &&& bitsOf i64 (-4294967296)) = 0
        by decide +kernel, z0 y hy64, k1, k2, ← k4, z1]
  · rw [if_pos (by simpa using k1), if_pos (by simpa using k3), k1, k2, k3, k4]
    decide +kernel

/-- `SumOfMulQuadAccumulate` of `uint16_t`. -/
theorem C55_sum_of_mul_quad_u16 (ha : Reg u16 a) (hb : Reg u16 b) (hs : Reg u64 sum) :
    Lanes u64 N (SumOfMulQuadU16 ar N a b sum) (fun i r => r ≡ lane sum i + quad a b i [ZMOD 2 ^ 64]) := by
  have h : u64 ∈ laneTys := by decide
  have hl : (4 * N + 1) / 2 = 2 * N := by omega
  have h1 : Runs u32 (2 * N) (MulEven u16 (4 * N) a b) (fun i => lane a (2 * i) * lane b (2 * i)) := by
    have := (C38_mul_even (t := u16) (by decide) (N := 4 * N) (show 4 * N ≤ 8 by omega) ha hb).runs (F := fun i => lane a (2 * i) * lane b (2 * i)) (show _ ≤ 4 by omega)
      fun i x _ _ e => e
    rwa [hl] at this
  have h2 : Runs u32 (2 * N) (MulOdd u16 (4 * N) a b) (fun i => lane a (2 * i + 1) * lane b (2 * i + 1)) := by
    have := (C38_mul_odd (t := u16) (by decide) (N := 4 * N) (show 4 * N ≤ 8 by omega) ha hb).runs (F := fun i => lane a (2 * i + 1) * lane b (2 * i + 1)) (show _ ≤ 4 by omega)
      fun i x _ _ e => e
    rwa [hl] at this
  refine Runs.lanes (Runs.bind h1 fun e he => Runs.bind h2 fun o ho =>
    Runs.bind (zeven (tF := u32) (by decide) hN ar he) fun e0 he0 =>
    Runs.bind (zeven (tF := u32) (by decide) hN ar ho) fun o0 ho0 =>
    Runs.bind (xadd h hN he0 ho0) fun p0 hp0 =>
    Runs.bind (zodd (tF := u32) (by decide) hN ar he) fun e1 he1 =>
    Runs.bind (zodd (tF := u32) (by decide) hN ar ho) fun o1 ho1 =>
    Runs.bind (xadd h hN he1 ho1) fun p1 hp1 =>
    Runs.bind (xadd h hN hp0 hp1) fun s hs' => xadd h hN (Is.refl hs) hs') hN fun i hi _ => ?_
  beta_reduce
  refine (wrap3 u64 _ _ _).trans ?_
  rw [quad_eq]
  ring_nf
  rfl
end

end Emu
end Hwy
