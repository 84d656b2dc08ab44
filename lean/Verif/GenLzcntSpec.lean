import Verif.GenBitsSpec

/-!
# C52: leading and trailing zeros through the exponent of a `float`
-/

namespace Hwy
namespace Emu
open CInt Flt

/-! ### The exponent field of a converted integer -/

theorem pow_eq {a b : Nat} (h : a = b) : 2 ^ a = 2 ^ b := by rw [h]

/-- `h` is the index of the highest set bit of `n`. -/
def Top (n h : Nat) : Prop := 2 ^ h ≤ n ∧ n < 2 ^ (h + 1)

theorem top_log2 {n : Nat} (h : n ≠ 0) : Top n n.log2 := ⟨Nat.log2_self_le h, Nat.lt_log2_self⟩

theorem top_unique {n a b : Nat} (ha : Top n a) (hb : Top n b) : a = b := by
  have h1 : 2 ^ a < 2 ^ (b + 1) := Nat.lt_of_le_of_lt ha.1 hb.2
  have h2 : 2 ^ b < 2 ^ (a + 1) := Nat.lt_of_le_of_lt hb.1 ha.2
  have h3 := (Nat.pow_lt_pow_iff_right (by decide : 1 < 2)).1 h1
  have h4 := (Nat.pow_lt_pow_iff_right (by decide : 1 < 2)).1 h2
  omega

/-- Conversion to `float` does not round `n` up to the next power of two. -/
def NoRoundUp (n : Nat) : Prop := ∀ h, Top n h → 24 ≤ h → n / 2 ^ (h - 24) % 2 = 0

theorem ofInt_nat (n : Nat) : ofInt f32 (n : Int) = rneEncode f32 0 (n * 2 ^ 149) := by
  unfold ofInt
  have h : ¬ ((n : Int) < 0) := by omega
  simp only [h, decide_false]
  rw [Int.natAbs_natCast]
  unfold Fmt.pack
  rw [if_neg (by decide), Nat.zero_add, show f32.unit = 149 from rfl]

theorem log2_shift {n h : Nat} (hn : Top n h) (k : Nat) : Nat.log2 (n * 2 ^ k) = h + k := by
  have h1 : Top (n * 2 ^ k) (h + k) := by
    refine ⟨?_, ?_⟩
    · rw [pow_add]; exact Nat.mul_le_mul_right _ hn.1
    · rw [show h + k + 1 = (h + 1) + k by omega, pow_add]
      exact Nat.mul_lt_mul_of_pos_right hn.2 (Nat.two_pow_pos _)
  have h0 : n * 2 ^ k ≠ 0 := by
    have h1 := hn.1
    have h2 := Nat.two_pow_pos h
    exact Nat.mul_ne_zero (by omega) (Nat.two_pow_pos k).ne'
  exact top_unique (top_log2 h0) h1

theorem core_bounds {v o d h : Nat} {G : Prop} (hpos : 0 < d) (hodd : o ≤ 1) (hh2 : h + 128 ≤ 255 - 64)
    (hlo : 8388608 * (2 * d) ≤ v) (hhi : v < 16777216 * (2 * d)) (hnr : G → v + d < 16777216 * (2 * d)) :
    (h + 127) * 8388608 ≤ min ((h + 126) * 8388608 + (v + o + d - 1) / (2 * d)) 2139095040 ∧
    min ((h + 126) * 8388608 + (v + o + d - 1) / (2 * d)) 2139095040 ≤ (h + 128) * 8388608 ∧
    (G → min ((h + 126) * 8388608 + (v + o + d - 1) / (2 * d)) 2139095040 < (h + 128) * 8388608) := by
  have b1 : 8388608 ≤ (v + o + d - 1) / (2 * d) := by
    rw [Nat.le_div_iff_mul_le (by omega)]
    omega
  have b2 : (v + o + d - 1) / (2 * d) < 16777217 := by
    rw [Nat.div_lt_iff_lt_mul (by omega)]
    omega
  have b3 : v + d < 16777216 * (2 * d) → (v + o + d - 1) / (2 * d) < 16777216 := by
    intro hb
    rw [Nat.div_lt_iff_lt_mul (by omega)]
    omega
  generalize (v + o + d - 1) / (2 * d) = r at *
  refine ⟨?_, ?_, fun hg => ?_⟩
  · omega
  · omega
  · have := b3 (hnr hg)
    omega

/-- Bounds of the code of a converted integer. -/
theorem code_bounds {n h : Nat} (hn : Top n h) (hh : h < 64) :
    (h + 127) * 2 ^ 23 ≤ ofInt f32 (n : Int) ∧ ofInt f32 (n : Int) ≤ (h + 128) * 2 ^ 23 ∧
    (NoRoundUp n → ofInt f32 (n : Int) < (h + 128) * 2 ^ 23) := by
  rw [ofInt_nat]
  unfold rneEncode
  rw [log2_shift hn]
  have et : max 0 (h + 149 - f32.p) = h + 126 := by show max 0 (h + 149 - 23) = _; omega
  rw [et]
  dsimp only
  obtain ⟨U, hU⟩ : ∃ U, U = 149 := ⟨_, rfl⟩
  rw [← hU]
  have ep : f32.p = 23 := rfl
  have ei : f32.inf = 255 * 2 ^ 23 := by decide
  rw [ep, ei, Nat.sub_zero]
  unfold rne
  rw [if_neg (by omega)]
  -- `n * 2^U` in units of `2^(h+125)`
  have e1 : (2 : Nat) ^ U * 2 ^ h = 2 ^ 23 * 2 ^ (h + 126) := by rw [← pow_add, ← pow_add]; exact pow_eq (by omega)
  have e2 : 2 ^ (h + 126) = 2 * 2 ^ (h + 126 - 1) := by rw [← pow_succ']; exact pow_eq (by omega)
  have hlo : 2 ^ 23 * 2 ^ (h + 126) ≤ n * 2 ^ U := by
    rw [← e1, Nat.mul_comm n]; exact Nat.mul_le_mul_left _ hn.1
  have hhi : n * 2 ^ U < 2 ^ 24 * 2 ^ (h + 126) := by
    have : 2 ^ 24 * 2 ^ (h + 126) = 2 ^ (h + 1) * 2 ^ U := by rw [← pow_add, ← pow_add]; exact pow_eq (by omega)
    rw [this]
    exact Nat.mul_lt_mul_of_pos_right hn.2 (Nat.two_pow_pos _)
  have hnr : NoRoundUp n → n * 2 ^ U + 2 ^ (h + 126 - 1) < 2 ^ 24 * 2 ^ (h + 126) := by
    intro hg
    by_cases h24 : 24 ≤ h
    · have hz := hg h hn h24
      have e3 : (2 : Nat) ^ (h + 1) = 2 ^ 25 * 2 ^ (h - 24) := by rw [← pow_add]; exact pow_eq (by omega)
      have hq : n / 2 ^ (h - 24) < 2 ^ 25 := Nat.div_lt_of_lt_mul (by rw [mul_comm, ← e3]; exact hn.2)
      have hq2 : n / 2 ^ (h - 24) + 1 ≤ 2 ^ 25 - 1 := by omega
      have hlt : n < 2 ^ (h - 24) * (n / 2 ^ (h - 24) + 1) := Nat.lt_mul_div_succ _ (Nat.two_pow_pos _)
      have hlt2 : n < 2 ^ (h - 24) * (2 ^ 25 - 1) := Nat.lt_of_lt_of_le hlt (Nat.mul_le_mul_left _ hq2)
      have e4 : (2 : Nat) ^ (h + 126 - 1) = 2 ^ (h - 24) * 2 ^ U := by rw [← pow_add]; exact pow_eq (by omega)
      rw [e2, e4]
      generalize (2 : Nat) ^ (h - 24) = u at hlt2
      have hlt3 := Nat.mul_lt_mul_of_pos_right hlt2 (Nat.two_pow_pos U)
      generalize (2 : Nat) ^ U = w at hlt3 ⊢
      have e5 : u * (2 ^ 25 - 1) * w = (2 ^ 25 - 1) * (u * w) := by ring
      rw [e5] at hlt3
      generalize u * w = uw at hlt3 ⊢
      generalize n * w = nw at hlt3 ⊢
      omega
    · have e3 : 2 ^ 24 * 2 ^ (h + 126) = 2 ^ (h + 1) * 2 ^ U := by rw [← pow_add, ← pow_add]; exact pow_eq (by omega)
      have h5 : 2 ^ (h + 126 - 1) < 2 ^ U := Nat.pow_lt_pow_right (by decide) (by omega)
      have h6 : (n + 1) * 2 ^ U ≤ 2 ^ (h + 1) * 2 ^ U := Nat.mul_le_mul_right _ hn.2
      rw [e3]
      rw [Nat.add_mul, Nat.one_mul] at h6
      omega
  have hodd : n * 2 ^ U / 2 ^ (h + 126) % 2 ≤ 1 := by omega
  have hpos : 0 < 2 ^ (h + 126 - 1) := Nat.two_pow_pos _
  have hh2 : h + 128 ≤ 255 - 64 := by omega
  rw [e2] at hlo hhi hnr hodd ⊢
  norm_num only [] at hlo hhi hnr ⊢
  exact core_bounds hpos hodd hh2 hlo hhi hnr

/-- The biased exponent of the converted integer. -/
theorem exp_of_top {n h : Nat} (hn : Top n h) (hh : h < 64) (hg : NoRoundUp n) :
    ofInt f32 (n : Int) / 2 ^ 23 = h + 127 := by
  obtain ⟨h1, -, h2⟩ := code_bounds hn hh
  have := h2 hg
  omega

theorem exp_le {n h : Nat} (hn : Top n h) (hh : h < 64) : ofInt f32 (n : Int) / 2 ^ 23 ≤ h + 128 := by
  obtain ⟨-, h1, -⟩ := code_bounds hn hh
  omega

theorem exp_zero : ofInt f32 0 = 0 := by decide +kernel

/-- What the code computes for a lane. -/
def fexp (x : Int) : Int := if x.toNat = 0 then 0 else (x.toNat.log2 : Int) + 127

theorem noRoundUp_small {n : Nat} (h : n < 2 ^ 24) : NoRoundUp n := by
  intro k hk h24
  have h1 : 2 ^ k < 2 ^ 24 := Nat.lt_of_le_of_lt hk.1 h
  have := (Nat.pow_lt_pow_iff_right (by decide : 1 < 2)).1 h1
  omega

theorem top_lt {n h b : Nat} (hn : Top n h) (hb : n < 2 ^ b) : h < b :=
  (Nat.pow_lt_pow_iff_right (by decide : 1 < 2)).1 (Nat.lt_of_le_of_lt hn.1 hb)

/-- The shifted bits of the converted integer are its exponent. -/
theorem rexp_eq {x : Int} (h0 : 0 ≤ x) (h1 : x < 2 ^ 64) (hg : NoRoundUp x.toNat) :
    ((ofInt f32 x : Nat) : Int) / 2 ^ 23 = fexp x := by
  obtain ⟨n, rfl⟩ := Int.eq_ofNat_of_zero_le h0
  unfold fexp
  rw [Int.toNat_natCast] at *
  by_cases hz : n = 0
  · subst hz
    rw [if_pos rfl]
    show ((ofInt f32 0 : Nat) : Int) / 2 ^ 23 = 0
    rw [exp_zero]; rfl
  · rw [if_neg hz]
    have ht := top_log2 hz
    have hl := top_lt ht (b := 64) (by exact_mod_cast h1)
    have e := exp_of_top ht hl hg
    have : ((ofInt f32 (n : Int) / 2 ^ 23 : Nat) : Int) = (n.log2 : Int) + 127 := by rw [e]; push_cast; rfl
    rw [← this]
    push_cast
    rfl

theorem fexp_nonneg (x : Int) : 0 ≤ fexp x := by unfold fexp; split_ifs <;> omega

theorem fexp_lt {x : Int} {b : Nat} (h1 : x.toNat < 2 ^ b) : fexp x < b + 127 := by
  unfold fexp
  split_ifs with h
  · omega
  · have := top_lt (top_log2 h) h1
    omega

theorem xexp32 {N : Nat} (hN : N ≤ 4) {v : List Int} {F : Nat → Int} (hv : Is u32 N v F)
    (hg : ∀ i, i < N → NoRoundUp (F i).toNat) : Runs u32 N (exp32 N v) (fun i => fexp (F i)) := by
  unfold exp32
  have hc : N ≤ cap u32 := hN
  refine Runs.congr (Runs.bind (xi2f hv hN hc) fun w hw => xshr (by decide) hc true (by decide) (by decide) hw)
    fun i hi => ?_
  have hx := has_u (t := u32) rfl (hv.has hc hi)
  exact rexp_eq hx.1 (lt_trans hx.2 (by decide)) (hg i hi)

/-- The raw exponents of `uint32_t` lanes. -/
theorem xexp32' {N : Nat} (hN : N ≤ 4) {v : List Int} {F : Nat → Int} (hv : Is u32 N v F) :
    Runs u32 N (exp32 N v) (fun i => ((ofInt f32 (F i) : Nat) : Int) / 2 ^ 23) :=
  Runs.bind (xi2f hv hN hN) fun _ hw => xshr (by decide) hN true (by decide) (by decide) hw

theorem fexp_mod {x : Int} {b c : Nat} (h1 : x.toNat < 2 ^ b) (hc : (b : Int) + 127 ≤ 2 ^ c) :
    fexp x % 2 ^ c = fexp x := by
  have := fexp_lt h1
  exact Int.emod_eq_of_lt (fexp_nonneg x) (by omega)

theorem xexp16 {N : Nat} (hN : N ≤ 4 ∨ N = 8) {v : List Int} {F : Nat → Int} (hv : Is u16 N v F) :
    Runs u16 N (exp16 N v) (fun i => fexp (F i)) := by
  have hc : N ≤ cap u16 := by show N ≤ 8; omega
  have hx : ∀ i, i < N → (F i).toNat < 2 ^ 16 := fun i hi => by
    obtain ⟨h1, h2⟩ := has_u (t := u16) rfl (hv.has hc hi)
    have h3 : (2 : Int) ^ u16.bits = 65536 := by decide
    have h4 : (2 : Nat) ^ 16 = 65536 := by decide
    omega
  have hg : ∀ i, i < N → NoRoundUp (F i).toNat := fun i hi => noRoundUp_small (lt_trans (hx i hi) (by decide))
  have hm : ∀ i, i < N → fexp (F i) % 2 ^ u16.bits = fexp (F i) := fun i hi => fexp_mod (hx i hi) (by decide)
  unfold exp16
  split_ifs with h
  · refine Runs.congr (Runs.bind (xpromote hv (tT := u32) (by decide) (by decide) (by decide) (by decide) h) fun a ha =>
      Runs.bind (xexp32 h ha hg) fun b hb => xtruncate hb (by decide) (by decide) (by decide) rfl h) fun i hi => hm i hi
  · obtain rfl : N = 8 := by omega
    have hc4 : 4 ≤ cap u32 := by decide
    refine Runs.congr (Runs.bind (xlower hv (by decide) hc (by decide : 8 / 2 ≤ 8)) fun a ha =>
      Runs.bind (xpromote ha (tT := u32) (by decide) (by decide) (by decide) (by decide) hc4) fun lo hlo =>
      Runs.bind (xupper hv (by decide) hc (by decide : 2 * (8 / 2) ≤ 8)) fun b hb =>
      Runs.bind (xpromote hb (tT := u32) (by decide) (by decide) (by decide) (by decide) hc4) fun hi' hhi =>
      Runs.bind (xexp32 hc4 hlo (fun i hi => hg i (by omega))) fun lo2 hlo2 =>
      Runs.bind (xexp32 hc4 hhi (fun i hi => hg _ (by omega))) fun hi2 hhi2 =>
      xtruncate2 hlo2 hhi2 (by decide) (by decide) (by decide) rfl hc4) fun i hi => ?_
    beta_reduce
    split_ifs with hlt
    · exact hm i hi
    · rw [show 8 / 2 + (i - 8 / 2) = i by omega]
      exact hm i hi

theorem xexp8 {N : Nat} (hN : N = 1 ∨ N = 2 ∨ N = 4 ∨ N = 8 ∨ N = 16) {v : List Int} {F : Nat → Int} (hv : Is u8 N v F) :
    Runs u8 N (exp8 N v) (fun i => fexp (F i)) := by
  have hc : N ≤ cap u8 := by show N ≤ 16; omega
  have hx : ∀ i, i < N → (F i).toNat < 2 ^ 8 := fun i hi => by
    obtain ⟨h1, h2⟩ := has_u (t := u8) rfl (hv.has hc hi)
    have h3 : (2 : Int) ^ u8.bits = 256 := by decide
    have h4 : (2 : Nat) ^ 8 = 256 := by decide
    omega
  have hg : ∀ i, i < N → NoRoundUp (F i).toNat := fun i hi => noRoundUp_small (lt_trans (hx i hi) (by decide))
  have hm : ∀ i, i < N → fexp (F i) % 2 ^ u8.bits = fexp (F i) := fun i hi => fexp_mod (hx i hi) (by decide)
  have hm2 : ∀ i, i < N → fexp (F i) % 2 ^ u16.bits = fexp (F i) := fun i hi => fexp_mod (hx i hi) (by decide)
  have hc4 : 4 ≤ cap u32 := by decide
  unfold exp8
  split_ifs with h h8
  · refine Runs.congr (Runs.bind (xpromote hv (tT := u32) (by decide) (by decide) (by decide) (by decide) h) fun a ha =>
      Runs.bind (xexp32 h ha hg) fun b hb => xu8fromu32 hb h) fun i hi => ?_
    have := fexp_lt (hx i hi)
    beta_reduce
    omega
  · obtain rfl : N = 8 := by omega
    refine Runs.congr (Runs.bind (xlower hv (by decide) hc (by decide : 8 / 2 ≤ 8)) fun a ha =>
      Runs.bind (xpromote ha (tT := u32) (by decide) (by decide) (by decide) (by decide) hc4) fun lo hlo =>
      Runs.bind (xupper hv (by decide) hc (by decide : 2 * (8 / 2) ≤ 8)) fun b hb =>
      Runs.bind (xpromote hb (tT := u32) (by decide) (by decide) (by decide) (by decide) hc4) fun hi' hhi =>
      Runs.bind (xexp32 hc4 hlo (fun i hi => hg i (by omega))) fun lo2 hlo2 =>
      Runs.bind (xexp32 hc4 hhi (fun i hi => hg _ (by omega))) fun hi2 hhi2 =>
      Runs.bind (xtruncate2 hlo2 hhi2 (tT := u16) (by decide) (by decide) (by decide) rfl hc4) fun r hr =>
      xtruncate hr (by decide) (by decide) (by decide) rfl (by decide)) fun i hi => ?_
    beta_reduce
    split_ifs with hlt
    · rw [hm2 i hi]; exact hm i hi
    · rw [show 8 / 2 + (i - 8 / 2) = i by omega, hm2 i hi]
      exact hm i hi
  · obtain rfl : N = 16 := by omega
    have hc8 : 8 ≤ cap u8 := by decide
    refine Runs.congr (Runs.bind (xlower hv (by decide) hc (by decide : 16 / 2 ≤ 16)) fun a ha =>
      Runs.bind (xupper hv (by decide) hc (by decide : 2 * (16 / 2) ≤ 16)) fun b hb =>
      Runs.bind (xlower ha (by decide) hc8 (by decide : 16 / 4 ≤ 16 / 2)) fun a0 ha0 =>
      Runs.bind (xpromote ha0 (tT := u32) (by decide) (by decide) (by decide) (by decide) hc4) fun q0 hq0 =>
      Runs.bind (xupper ha (by decide) hc8 (by decide : 2 * (16 / 4) ≤ 16 / 2)) fun a1 ha1 =>
      Runs.bind (xpromote ha1 (tT := u32) (by decide) (by decide) (by decide) (by decide) hc4) fun q1 hq1 =>
      Runs.bind (xlower hb (by decide) hc8 (by decide : 16 / 4 ≤ 16 / 2)) fun a2 ha2 =>
      Runs.bind (xpromote ha2 (tT := u32) (by decide) (by decide) (by decide) (by decide) hc4) fun q2 hq2 =>
      Runs.bind (xupper hb (by decide) hc8 (by decide : 2 * (16 / 4) ≤ 16 / 2)) fun a3 ha3 =>
      Runs.bind (xpromote ha3 (tT := u32) (by decide) (by decide) (by decide) (by decide) hc4) fun q3 hq3 =>
      Runs.bind (xexp32 hc4 hq0 (fun i hi => hg i (by omega))) fun e0 he0 =>
      Runs.bind (xexp32 hc4 hq1 (fun i hi => hg _ (by omega))) fun e1 he1 =>
      Runs.bind (xexp32 hc4 hq2 (fun i hi => hg _ (by omega))) fun e2 he2 =>
      Runs.bind (xexp32 hc4 hq3 (fun i hi => hg _ (by omega))) fun e3 he3 =>
      Runs.bind (xtruncate2 he0 he1 (tT := u16) (by decide) (by decide) (by decide) rfl hc4) fun lo hlo =>
      Runs.bind (xtruncate2 he2 he3 (tT := u16) (by decide) (by decide) (by decide) rfl hc4) fun hi' hhi =>
      xtruncate2 hlo hhi (by decide) (by decide) (by decide) rfl (by decide)) fun i hi => ?_
    beta_reduce
    have key : ∀ j, j = i → fexp (F j) % 2 ^ u16.bits % 2 ^ u8.bits = fexp (F i) := by
      rintro j rfl
      rw [hm2 j hi]
      exact hm j hi
    split_ifs <;> exact key _ (by omega)

/-! ### Lanes of 64 bits -/

theorem noRoundUp_hi {n : Nat} (h : NoRoundUp n) : NoRoundUp (n / 2 ^ 32) := by
  intro k hk h24
  have ht : Top n (k + 32) := by
    refine ⟨?_, ?_⟩
    · rw [pow_add]
      exact (Nat.le_div_iff_mul_le (Nat.two_pow_pos _)).1 hk.1
    · rw [show k + 32 + 1 = (k + 1) + 32 by omega, pow_add]
      exact (Nat.div_lt_iff_lt_mul (Nat.two_pow_pos _)).1 hk.2
  have := h _ ht (by omega)
  rw [Nat.div_div_eq_div_mul, ← pow_add, show 32 + (k - 24) = k + 32 - 24 by omega]
  exact this

theorem log2_hi {n : Nat} (h : n / 2 ^ 32 ≠ 0) : n.log2 = (n / 2 ^ 32).log2 + 32 := by
  have hk := top_log2 h
  have ht : Top n ((n / 2 ^ 32).log2 + 32) := by
    refine ⟨?_, ?_⟩
    · rw [pow_add]
      exact (Nat.le_div_iff_mul_le (Nat.two_pow_pos _)).1 hk.1
    · have e : (n / 2 ^ 32).log2 + 32 + 1 = ((n / 2 ^ 32).log2 + 1) + 32 := by omega
      generalize (n / 2 ^ 32).log2 = L at e hk ⊢
      rw [e, pow_add]
      exact (Nat.div_lt_iff_lt_mul (Nat.two_pow_pos _)).1 hk.2
  have hn : n ≠ 0 := by rintro rfl; exact h (Nat.zero_div _)
  exact top_unique (top_log2 hn) ht

theorem rexp_nonneg (x : Int) : 0 ≤ ((ofInt f32 x : Nat) : Int) / 2 ^ 23 := by positivity

theorem rexp_le {x : Int} (h0 : 0 ≤ x) (h1 : x < 2 ^ 32) : ((ofInt f32 x : Nat) : Int) / 2 ^ 23 ≤ 159 := by
  obtain ⟨n, rfl⟩ := Int.eq_ofNat_of_zero_le h0
  by_cases hz : n = 0
  · subst hz
    show ((ofInt f32 0 : Nat) : Int) / 2 ^ 23 ≤ 159
    rw [exp_zero]; decide
  · have ht := top_log2 hz
    have hl := top_lt ht (b := 32) (by exact_mod_cast h1)
    have e := exp_le ht (by omega)
    have : ((ofInt f32 (n : Int) / 2 ^ 23 : Nat) : Int) ≤ 159 := by omega
    refine le_trans (le_of_eq ?_) this
    push_cast
    rfl

theorem exp64_core {x hi lo A B : Int} (h0 : 0 ≤ x) (h1 : x < 2 ^ 64) (hg : NoRoundUp x.toNat)
    (ehi : hi = x / 2 ^ 32) (elo : lo = x % 2 ^ 32) (eA : A = ((ofInt f32 hi : Nat) : Int) / 2 ^ 23)
    (eB : B = ((ofInt f32 lo : Nat) : Int) / 2 ^ 23) :
    max (A + if A = 0 then 0 else 32) (B + if B = 0 then 0 else 0) = fexp x := by
  obtain ⟨n, rfl⟩ := Int.eq_ofNat_of_zero_le h0
  have hn : n < 2 ^ 64 := by exact_mod_cast h1
  rw [Int.toNat_natCast] at hg
  have ehi2 : hi = ((n / 2 ^ 32 : Nat) : Int) := by rw [ehi]; push_cast; rfl
  have elo2 : lo = ((n % 2 ^ 32 : Nat) : Int) := by rw [elo]; push_cast; rfl
  have hhi : n / 2 ^ 32 < 2 ^ 32 := Nat.div_lt_of_lt_mul (by rw [← pow_add]; exact hn)
  have hlo : n % 2 ^ 32 < 2 ^ 32 := Nat.mod_lt _ (by decide)
  have hA : A = fexp hi := by
    rw [eA]
    refine rexp_eq (by rw [ehi2]; exact Int.natCast_nonneg _) ?_ ?_
    · rw [ehi2]; exact_mod_cast lt_trans hhi (by decide)
    · rw [ehi2, Int.toNat_natCast]; exact noRoundUp_hi hg
  have hB0 : 0 ≤ B := by rw [eB]; exact rexp_nonneg _
  have hB1 : B ≤ 159 := by
    rw [eB]
    refine rexp_le (by rw [elo2]; exact Int.natCast_nonneg _) ?_
    rw [elo2]; exact_mod_cast hlo
  rw [ite_self, add_zero]
  by_cases hz : n / 2 ^ 32 = 0
  · have hA0 : A = 0 := by rw [hA, ehi2, hz]; rfl
    rw [hA0, if_pos rfl]
    have hlon : n % 2 ^ 32 = n := by
      refine Nat.mod_eq_of_lt ?_
      have := Nat.div_add_mod n (2 ^ 32)
      rw [hz, Nat.mul_zero, Nat.zero_add] at this
      rw [← this]
      exact hlo
    have hBx : B = fexp (n : Int) := by
      rw [eB, elo2, hlon]
      exact rexp_eq h0 h1 (by rw [Int.toNat_natCast]; exact hg)
    rw [← hBx]
    omega
  · have hA2 : A = ((n / 2 ^ 32).log2 : Int) + 127 := by
      rw [hA, ehi2]
      unfold fexp
      rw [Int.toNat_natCast, if_neg hz]
    have hx : fexp (n : Int) = (n.log2 : Int) + 127 := by
      unfold fexp
      rw [Int.toNat_natCast, if_neg (by rintro rfl; exact hz (Nat.zero_div _))]
    rw [hx, log2_hi hz, if_neg (by omega), hA2]
    push_cast
    omega

theorem xexp64 {N : Nat} (hN : N ≤ 2) {v : List Int} {F : Nat → Int} (hv : Is u64 N v F)
    (hg : ∀ i, i < N → NoRoundUp (F i).toNat) : Runs u64 N (exp64 N v) (fun i => fexp (F i)) := by
  have hc : N ≤ cap u64 := hN
  have hc2 : 2 * N ≤ cap u32 := by show _ ≤ 4; omega
  unfold exp64
  have hset : Runs u64 N (Set u64 N 0x0000002000000000) (fun _ => 0x0000002000000000) :=
    xset (by decide) hc (by decide +kernel)
  refine Runs.congr (Runs.bind (xexp32' hc2 (is_bc_narrow hv (tT := u32) (by decide) (by decide) rfl hc)) fun e he =>
    RunsM.bind (xeq (by decide) hc2 he (is_zero (by decide) _)) fun m hm =>
    Runs.bind hset fun s hs =>
    Runs.bind (xitze (by decide) hc2 hm (is_bc_narrow hs (tT := u32) (by decide) (by decide) rfl hc)) fun adj hadj =>
    Runs.bind (xadd (by decide) hc2 he hadj) fun a ha =>
    Runs.bind (xreverse2 ha (by decide) hc2 ⟨N, rfl⟩) fun r hr =>
    Runs.bind (xmax (by decide) hc2 ha hr) fun mx hmx =>
    xshr (by decide) hc true (by decide) (by decide) (is_bc_wide hmx (by decide) (by decide) rfl hc)) fun i hi => ?_
  beta_reduce
  have x0 : 2 * i ^^^ 1 = 2 * i + 1 := by
    have : ∀ i < 2, 2 * i ^^^ 1 = 2 * i + 1 := by decide
    exact this i (by omega)
  have x1 : (2 * i + 1) ^^^ 1 = 2 * i := by
    have : ∀ i < 2, (2 * i + 1) ^^^ 1 = 2 * i := by decide
    exact this i (by omega)
  have e0 : 2 * i / 2 = i := by omega
  have e1 : (2 * i + 1) / 2 = i := by omega
  have e2 : 2 * i % 2 = 0 := by omega
  have e3 : (2 * i + 1) % 2 = 1 := by omega
  rw [x0, x1, e0, e1, e2, e3]
  obtain ⟨h0, h1⟩ := has_u (t := u64) rfl (hv.has hc hi)
  have hgi := hg i hi
  generalize F i = x at h0 h1 hgi ⊢
  have w0 : u32.wrap (137438953472 / 2 ^ (u32.bits * 0)) = 0 := by decide +kernel
  have w1 : u32.wrap (137438953472 / 2 ^ (u32.bits * 1)) = 32 := by decide +kernel
  rw [w0, w1]
  have elo : u32.wrap (x / 2 ^ (u32.bits * 0)) = x % 2 ^ 32 := by
    rw [Nat.mul_zero, pow_zero, Int.ediv_one]
    have : u32.wrap x = u32.wrap (x % 2 ^ 32) := wrap_congr u32 (Int.emod_emod_of_dvd _ (dvd_refl _)).symm
    rw [this]
    exact wrap_of_lt (by decide) rfl (Int.emod_nonneg _ (by decide)) (Int.emod_lt_of_pos _ (by decide))
  have ehi : u32.wrap (x / 2 ^ (u32.bits * 1)) = x / 2 ^ 32 := by
    have h64 : (2 : Int) ^ u64.bits = 2 ^ u32.bits * 2 ^ (u32.bits * 1) := by decide
    exact wrap_of_lt (by decide) rfl (Int.ediv_nonneg h0 (by decide)) (Int.ediv_lt_of_lt_mul (by decide) (by rw [← h64]; exact h1))
  rw [elo, ehi]
  have hA := rexp_nonneg (x / 2 ^ 32)
  have hB := rexp_nonneg (x % 2 ^ 32)
  have hA1 : ((ofInt f32 (x / 2 ^ 32) : Nat) : Int) / 2 ^ 23 ≤ 159 := rexp_le (Int.ediv_nonneg h0 (by decide)) (by
    have h64 : (2 : Int) ^ u64.bits = 2 ^ 32 * 2 ^ 32 := by decide
    exact Int.ediv_lt_of_lt_mul (by decide) (by rw [← h64]; exact h1))
  have hB1 : ((ofInt f32 (x % 2 ^ 32) : Nat) : Int) / 2 ^ 23 ≤ 159 :=
    rexp_le (Int.emod_nonneg _ (by decide)) (Int.emod_lt_of_pos _ (by decide))
  have core := exp64_core h0 h1 hgi rfl rfl rfl rfl
  generalize ((ofInt f32 (x / 2 ^ 32) : Nat) : Int) / 2 ^ 23 = A at *
  generalize ((ofInt f32 (x % 2 ^ 32) : Nat) : Int) / 2 ^ 23 = B at *
  clear elo ehi w0 w1 hset hv hg hgi h0 h1
  have bw : ∀ y : Int, 0 ≤ y → y ≤ 400 → u32.wrap y = y := fun y a b =>
    wrap_of_lt (by decide) rfl a (lt_of_le_of_lt b (by decide))
  simp only [decide_eq_true_eq]
  rw [bw _ (by split_ifs <;> omega) (by split_ifs <;> omega), bw _ (by split_ifs <;> omega) (by split_ifs <;> omega)]
  rw [max_comm (B + _) (A + _), core]
  have hf0 := fexp_nonneg x
  have hf1 : fexp x ≤ 400 := by rw [← core]; split_ifs <;> omega
  generalize fexp x = y at hf0 hf1
  have p32 : (2 : Int) ^ u32.bits = 4294967296 := by decide
  have p64 : (2 : Int) ^ u64.bits = 18446744073709551616 := by decide
  have p3 : (2 : Int) ^ (32 : Int).toNat = 4294967296 := by decide
  rw [wrap_of_lt (by decide) rfl (by rw [p32]; omega) (by rw [p32, p64]; omega), p32, p3]
  omega

theorem xexp {t : Ty} (h : t ∈ laneTys) (hu : t.sgn = false) {N : Nat} (hN : VecLanes t N) {v : List Int}
    {F : Nat → Int} (hv : Is t N v F) (hg : ∀ i, i < N → NoRoundUp (F i).toNat) :
    Runs t N (UIntToF32BiasedExp t N v) (fun i => fexp (F i)) := by
  obtain ⟨h1, h2⟩ := hN
  have hc : ∀ t ∈ laneTys, t.sgn = false → t = u8 ∨ t = u16 ∨ t = u32 ∨ t = u64 := by decide
  have c : cap u8 = 16 ∧ cap u16 = 8 ∧ cap u32 = 4 ∧ cap u64 = 2 := by decide
  simp only [List.mem_cons, List.not_mem_nil, or_false] at h1
  unfold UIntToF32BiasedExp
  rcases hc t h hu with rfl | rfl | rfl | rfl
  · rw [if_pos (by decide)]
    exact xexp8 (by omega) hv
  · rw [if_neg (by decide), if_pos (by decide)]
    exact xexp16 (by omega) hv
  · rw [if_neg (by decide), if_neg (by decide), if_pos (by decide)]
    exact xexp32 (by omega) hv hg
  · rw [if_neg (by decide), if_neg (by decide), if_neg (by decide)]
    exact xexp64 (by omega) hv hg

/-! ### Normalization -/

theorem top_testBit {n h : Nat} : Top n h ↔ n.testBit h = true ∧ n < 2 ^ (h + 1) := by
  refine ⟨fun ht => ⟨?_, ht.2⟩, fun ht => ⟨Nat.ge_two_pow_of_testBit ht.1, ht.2⟩⟩
  rw [Nat.testBit_eq_decide_div_mod_eq]
  have h1 : n / 2 ^ h = 1 := by
    have a : 1 ≤ n / 2 ^ h := (Nat.le_div_iff_mul_le (Nat.two_pow_pos _)).2 (by rw [Nat.one_mul]; exact ht.1)
    have b : n / 2 ^ h < 2 := (Nat.div_lt_iff_lt_mul (Nat.two_pow_pos _)).2 (by rw [← pow_succ']; exact ht.2)
    omega
  rw [h1]
  rfl

/-- Clearing the bits 24 below set bits keeps the highest bit and prevents rounding up. -/
theorem normal_top {n m : Nat} (hm : ∀ k, m.testBit k = (n.testBit k && !n.testBit (k + 24))) :
    (n = 0 → m = 0) ∧ (∀ h, Top n h → Top m h) ∧ NoRoundUp m := by
  have htop : ∀ h, Top n h → Top m h := by
    intro h ht
    rw [top_testBit] at ht ⊢
    refine ⟨?_, Nat.lt_pow_two_of_testBit _ fun j hj => ?_⟩
    · rw [hm, ht.1, Nat.testBit_lt_two_pow (lt_of_lt_of_le ht.2 (Nat.pow_le_pow_right (by decide) (by omega)))]
      rfl
    · rw [hm, Nat.testBit_lt_two_pow (lt_of_lt_of_le ht.2 (Nat.pow_le_pow_right (by decide) hj))]
      rfl
  refine ⟨fun h0 => ?_, htop, fun h ht h24 => ?_⟩
  · subst h0
    exact Nat.eq_of_testBit_eq fun j => by rw [hm, Nat.zero_testBit]; rfl
  · have hn : n ≠ 0 := by
      rintro rfl
      have := (top_testBit.1 ht).1
      rw [hm, Nat.zero_testBit] at this
      simp at this
    have e : n.log2 = h := top_unique (htop _ (top_log2 hn)) ht
    have hb := (top_testBit.1 (top_log2 hn)).1
    have := hm (h - 24)
    rw [show h - 24 + 24 = h by omega, ← e, hb, e, Nat.testBit_eq_decide_div_mod_eq] at this
    have h2 : ¬ (m / 2 ^ (h - 24) % 2 = 1) := by simpa using this
    omega

theorem ofBits_u {t : Ty} (hu : t.sgn = false) (w : BitVec t.bits) : t.ofBits w = (w.toNat : Int) := by
  unfold Ty.ofBits
  rw [hu]
  rfl

theorem fexp_congr {x y : Int} (h0 : x.toNat = 0 → y.toNat = 0) (h : ∀ k, Top x.toNat k → Top y.toNat k) :
    fexp y = fexp x := by
  unfold fexp
  by_cases hz : x.toNat = 0
  · rw [if_pos hz, if_pos (h0 hz)]
  · have ht := h _ (top_log2 hz)
    have hy : y.toNat ≠ 0 := by
      intro e
      rw [e] at ht
      have := ht.1
      have := Nat.two_pow_pos x.toNat.log2
      omega
    rw [if_neg hz, if_neg hy, top_unique (top_log2 hy) ht]

/-- The exponents of normalized lanes. -/
theorem xnormexp {t : Ty} (h : t ∈ laneTys) (hu : t.sgn = false) {N : Nat} (hN : VecLanes t N) {v : List Int}
    {F : Nat → Int} (hv : Is t N v F) :
    Runs t N (do UIntToF32BiasedExp t N (← NormalizeForUIntTruncConvToF32 t N v)) (fun i => fexp (F i)) := by
  unfold NormalizeForUIntTruncConvToF32
  by_cases hb : t.bits = 8 ∨ t.bits = 16
  · rw [if_pos hb, ok_bind']
    refine xexp h hu hN hv fun i hi => noRoundUp_small ?_
    obtain ⟨h1, h2⟩ := has_u hu (hv.has hN.2 hi)
    have : (F i).toNat < 2 ^ t.bits := by
      have h3 : ((F i).toNat : Int) < 2 ^ t.bits := by rw [Int.toNat_of_nonneg h1]; exact h2
      exact_mod_cast h3
    exact lt_of_lt_of_le this (Nat.pow_le_pow_right (by decide) (by omega))
  · rw [if_neg hb]
    have hb24 : 24 < t.bits := by
      have : ∀ t ∈ laneTys, ¬ (t.bits = 8 ∨ t.bits = 16) → 24 < t.bits := by decide
      exact this t h hb
    have key : ∀ i, i < N → ∀ k, (t.ofBits (~~~ bitsOf t (F i / 2 ^ (24 : Int).toNat) &&& bitsOf t (F i))).toNat.testBit k =
        ((F i).toNat.testBit k && !(F i).toNat.testBit (k + 24)) := by
      intro i hi k
      obtain ⟨h1, h2⟩ := has_u hu (hv.has hN.2 hi)
      generalize F i = x at h1 h2
      obtain ⟨n, rfl⟩ := Int.eq_ofNat_of_zero_le h1
      have hn : n < 2 ^ t.bits := by exact_mod_cast h2
      rw [ofBits_u hu, Int.toNat_natCast, Int.toNat_natCast, BitVec.testBit_toNat, BitVec.getLsbD_and, BitVec.getLsbD_not]
      unfold bitsOf
      rw [show ((n : Int) / 2 ^ (24 : Int).toNat) = ((n / 2 ^ 24 : Nat) : Int) by push_cast; rfl, BitVec.ofInt_natCast,
        BitVec.ofInt_natCast, BitVec.getLsbD_ofNat, BitVec.getLsbD_ofNat, Nat.testBit_div_two_pow]
      by_cases hk : k < t.bits
      · simp only [hk, decide_true, Bool.true_and]
        rw [Bool.and_comm]
      · have : n.testBit k = false := Nat.testBit_lt_two_pow (lt_of_lt_of_le hn (Nat.pow_le_pow_right (by decide) (by omega)))
        rw [this]
        simp [hk]
    simp only [bind_assoc]
    refine Runs.congr (Runs.bind (xshr h hN.2 true (by decide) (by omega) hv) fun a ha =>
      Runs.bind (xandnot h hN.2 ha hv) fun b hb => xexp h hu hN hb fun i hi => (normal_top (key i hi)).2.2) fun i hi => ?_
    exact fexp_congr (normal_top (key i hi)).1 (normal_top (key i hi)).2.1

/-! ### `HighestSetBitIndex`, `LeadingZeroCount`, `TrailingZeroCount` -/

theorem unsigned_facts {t : Ty} (h : t ∈ laneTys) : t.unsigned ∈ laneTys ∧ t.unsigned.sgn = false ∧ t.unsigned.bits = t.bits ∧
    cap t.unsigned = cap t := by
  revert t
  decide

theorem lit_facts : ∀ t ∈ laneTys, t.unsigned.Has 127 ∧ t.unsigned.Has t.bits ∧ t.unsigned.Has (t.bits + 126) ∧
    t.Has t.bits ∧ (⟨t.bits, true⟩ : Ty) ∈ laneTys := by decide +kernel

theorem wrap_unsigned {t : Ty} (h : t ∈ laneTys) {x : Int} : t.unsigned.wrap x = ((bitsOf t x).toNat : Int) := by
  obtain ⟨-, hu, hb, -⟩ := unsigned_facts h
  unfold Ty.wrap
  rw [hu]
  simp only [Bool.false_eq_true, if_false]
  unfold bitsOf
  rw [hb, BitVec.toNat_ofInt, Int.toNat_of_nonneg (Int.emod_nonneg _ (by positivity))]
  norm_cast

/-- The two vectors of `LeadingZeroCount` and `TrailingZeroCount` in the lanes of the final `Min`. -/
theorem xminbits {t : Ty} (h : t ∈ laneTys) {N : Nat} (hN : N ≤ cap t) {L : Nat → Int} {l s : List Int}
    (hl : Is t.unsigned N l L) (hs : Is t.unsigned N s (fun _ => (t.bits : Int))) :
    Runs t N (do
      let r ← Min (minMaxTy t) (minMaxN t N) (BitCast t.unsigned (minMaxTy t) l) (BitCast t.unsigned (minMaxTy t) s)
      return BitCast (minMaxTy t) t r) (fun i => min (L i % 2 ^ (min t.bits 32)) t.bits) := by
  obtain ⟨hum, hu, hub, hucap⟩ := unsigned_facts h
  have hsmall : ∀ t ∈ laneTys, ∀ x : Int, 0 ≤ x → x ≤ t.bits → t.wrap x = x ∧ t.unsigned.wrap x = x := by
    intro t h x h0 h1
    obtain ⟨hum, hu, hub, hucap⟩ := unsigned_facts h
    have : t.Has t.bits ∧ t.unsigned.Has t.bits := ⟨(lit_facts t h).2.2.2.1, (lit_facts t h).2.1⟩
    have hz := has_zero h
    have hz2 := has_zero hum
    refine ⟨wrap_has' h ⟨by have := hz.1; omega, by have := this.1.2; omega⟩,
      wrap_has' hum ⟨by have := hz2.1; omega, by have := this.2.2; omega⟩⟩
  by_cases hb : t.bits = 64
  · have e1 : minMaxTy t = u32 := by unfold minMaxTy; rw [if_pos hb]
    have e2 : minMaxN t N = 2 * N := by unfold minMaxN; rw [if_pos hb]
    have hcap : cap t = 2 := by unfold cap; rw [hb]
    have hc2 : 2 * N ≤ cap u32 := by show _ ≤ 4; omega
    rw [e1, e2]
    have hnb : t.unsigned.bits = 2 * u32.bits := by rw [hub, hb]; rfl
    refine Runs.congr (Runs.bind (xmin (by decide) hc2 (is_bc_narrow hl (tT := u32) hum (by decide) hnb (by omega))
      (is_bc_narrow hs (tT := u32) hum (by decide) hnb (by omega))) fun m hm =>
      Runs.ret (is_bc_wide hm (by decide) h (by rw [hb]; rfl) hN)) fun i hi => ?_
    beta_reduce
    have e0 : 2 * i / 2 = i := by omega
    have e1 : (2 * i + 1) / 2 = i := by omega
    have e2 : 2 * i % 2 = 0 := by omega
    have e3 : (2 * i + 1) % 2 = 1 := by omega
    rw [e0, e1, e2, e3, hb]
    generalize L i = y
    have w0 : u32.wrap (((64 : Nat) : Int) / 2 ^ (u32.bits * 0)) = 64 := by decide +kernel
    have w1 : u32.wrap (((64 : Nat) : Int) / 2 ^ (u32.bits * 1)) = 0 := by decide +kernel
    rw [w0, w1, Nat.mul_zero, pow_zero, Int.ediv_one]
    have hge : 0 ≤ u32.wrap (y / 2 ^ (u32.bits * 1)) := (has_u (t := u32) rfl (has_wrap' (by decide) _)).1
    rw [min_eq_right hge, mul_zero, add_zero]
    have hy : u32.wrap y = y % 4294967296 := by
      have : u32.wrap y = u32.wrap (y % 4294967296) := wrap_congr u32 (Int.emod_emod_of_dvd _ (dvd_refl _)).symm
      rw [this]
      exact wrap_of_lt (by decide) rfl (Int.emod_nonneg _ (by decide)) (Int.emod_lt_of_pos _ (by decide))
    rw [hy]
    have p1 : (2 : Int) ^ (min 64 32) = 4294967296 := by decide
    have p2 : (2 : Int) ^ u32.bits = 4294967296 := by decide
    rw [p1, p2]
    have := Int.emod_nonneg y (by decide : (4294967296 : Int) ≠ 0)
    generalize y % 4294967296 = z at this ⊢
    have hm : (min z 64) % 4294967296 = min z 64 := Int.emod_eq_of_lt (by omega) (by omega)
    rw [hm]
    exact (hsmall t h _ (by omega) (by omega)).1
  · have e1 : minMaxTy t = t.unsigned := by unfold minMaxTy; rw [if_neg hb]
    have e2 : minMaxN t N = N := by unfold minMaxN; rw [if_neg hb]
    have hb32 : t.bits ≤ 32 := by
      have : ∀ t ∈ laneTys, t.bits ≠ 64 → t.bits ≤ 32 := by decide
      exact this t h hb
    rw [e1, e2]
    refine Runs.congr (Runs.bind (xmin hum (by omega) (is_bc_same hl hum rfl (by omega))
      (is_bc_same hs hum rfl (by omega))) fun m hm =>
      Runs.ret (is_bc_same hm h (by rw [hub]) hN)) fun i hi => ?_
    beta_reduce
    rw [(hsmall t h _ (Int.natCast_nonneg _) le_rfl).2]
    rw [Nat.min_eq_left hb32]
    have hL : t.unsigned.wrap (L i) = L i % 2 ^ t.bits := by
      unfold Ty.wrap
      rw [hu, hub]
      rfl
    rw [hL]
    have := Int.emod_nonneg (L i) (by positivity : (2 : Int) ^ t.bits ≠ 0)
    generalize L i % 2 ^ t.bits = z at this ⊢
    exact (hsmall t h _ (by omega) (by omega)).1

/-- The lanes of `t`, as bits. -/
theorem is_bc_u {t : Ty} (h : t ∈ laneTys) {N : Nat} (hN : N ≤ cap t) {v : List Int} (hv : Reg t v) :
    Is t.unsigned N (BitCast t t.unsigned v) (fun i => ((bitsOf t (lane v i)).toNat : Int)) := by
  obtain ⟨hum, hu, hub, hucap⟩ := unsigned_facts h
  have := is_bc_same (Is.refl (N := N) hv) hum hub (by omega)
  exact ⟨this.1, fun i hi => (this.2 i hi).trans (wrap_unsigned h)⟩

theorem vec_u {t : Ty} (h : t ∈ laneTys) {N : Nat} (hN : VecLanes t N) : VecLanes t.unsigned N :=
  ⟨hN.1, by rw [(unsigned_facts h).2.2.2]; exact hN.2⟩

theorem toNat_lt {t : Ty} (x : Int) : (bitsOf t x).toNat < 2 ^ t.bits := (bitsOf t x).isLt

/-- `HighestSetBitIndex`: the index of the highest set bit; for zero lanes a negative value, or one above the
largest signed value. -/
theorem C52_highest_set_bit_index {t : Ty} (h : t ∈ laneTys) {N : Nat} (hN : VecLanes t N) {v : List Int}
    (hv : Reg t v) :
    Lanes t N (HighestSetBitIndex t N v) (fun i r =>
      ((bitsOf t (lane v i)).toNat ≠ 0 → 0 ≤ r ∧ 2 ^ r.toNat ≤ (bitsOf t (lane v i)).toNat ∧
        (bitsOf t (lane v i)).toNat < 2 ^ (r.toNat + 1)) ∧
      (lane v i = 0 → if t.sgn then r < 0 else 2 ^ (t.bits - 1) ≤ r)) := by
  obtain ⟨hum, hu, hub, hucap⟩ := unsigned_facts h
  have hcu : N ≤ cap t.unsigned := by rw [hucap]; exact hN.2
  have h127 : t.unsigned.Has 127 := (lit_facts t h).1
  have hE := xnormexp hum hu (vec_u h hN) (is_bc_u h hN.2 hv)
  unfold HighestSetBitIndex
  dsimp only
  rw [← bind_assoc]
  refine Runs.lanes (Runs.bind hE fun e he => Runs.bind (xset hum hcu h127) fun s hs =>
    Runs.bind (xsub hum hcu he hs) fun r hr => Runs.ret (is_bc_same hr h hub.symm hN.2)) hN.2 fun i hi _ => ?_
  beta_reduce
  have hlt := toNat_lt (t := t) (lane v i)
  refine ⟨fun hz => ?_, fun hz => ?_⟩
  · generalize (bitsOf t (lane v i)).toNat = n at hz hlt
    have ht := top_log2 hz
    have hl := top_lt ht hlt
    have e1 : fexp (n : Int) - 127 = (n.log2 : Int) := by
      unfold fexp
      rw [Int.toNat_natCast, if_neg hz]
      omega
    have hw : ∀ t ∈ laneTys, ∀ k < t.bits, t.wrap (t.unsigned.wrap k) = (k : Int) := by decide +kernel
    rw [e1, hw t h _ hl, Int.toNat_natCast]
    exact ⟨Int.natCast_nonneg _, ht.1, ht.2⟩
  · rw [hz]
    have : ∀ t ∈ laneTys, (if t.sgn = true then t.wrap (t.unsigned.wrap (fexp ((bitsOf t 0).toNat : Int) - 127)) < 0 else
      2 ^ (t.bits - 1) ≤ t.wrap (t.unsigned.wrap (fexp ((bitsOf t 0).toNat : Int) - 127))) := by decide +kernel
    exact this t h

/-- `LeadingZeroCount`: the number of zero bits above the highest set bit; all bits if there is none. -/
theorem C52_leading_zero_count {t : Ty} (h : t ∈ laneTys) {N : Nat} (hN : VecLanes t N) {v : List Int}
    (hv : Reg t v) :
    Lanes t N (LeadingZeroCount t N v) (fun i r =>
      (lane v i = 0 → r = t.bits) ∧
      (lane v i ≠ 0 → 0 ≤ r ∧ r < t.bits ∧ 2 ^ (t.bits - 1 - r.toNat) ≤ (bitsOf t (lane v i)).toNat ∧
        (bitsOf t (lane v i)).toNat < 2 ^ (t.bits - r.toNat))) := by
  obtain ⟨hum, hu, hub, hucap⟩ := unsigned_facts h
  have hcu : N ≤ cap t.unsigned := by rw [hucap]; exact hN.2
  have hset1 : t.unsigned.Has (t.bits + 126) := (lit_facts t h).2.2.1
  have hset2 : t.unsigned.Has t.bits := (lit_facts t h).2.1
  have hE := xnormexp hum hu (vec_u h hN) (is_bc_u h hN.2 hv)
  unfold LeadingZeroCount
  dsimp only
  rw [← bind_assoc]
  refine Runs.lanes (Runs.bind hE fun e he => Runs.bind (xset hum hcu hset1) fun s hs =>
    Runs.bind (xsub hum hcu hs he) fun r hr => Runs.bind (xset hum hcu hset2) fun b hb => xminbits h hN.2 hr hb) hN.2
    fun i hi _ => ?_
  beta_reduce
  have hx := hv.lane_has (i := i) (lt_of_lt_of_le hi hN.2)
  refine ⟨fun hz => ?_, fun hz => ?_⟩
  · rw [hz]
    have : ∀ t ∈ laneTys, min (t.unsigned.wrap ((t.bits : Int) + 126 - fexp ((bitsOf t 0).toNat : Int)) % 2 ^ (min t.bits 32))
      (t.bits : Int) = t.bits := by decide +kernel
    exact this t h
  · have hlt := toNat_lt (t := t) (lane v i)
    have hnz : (bitsOf t (lane v i)).toNat ≠ 0 := by
      intro e
      refine hz (ofBits_inj t (bits_pos h) hx (has_zero h) (BitVec.eq_of_toNat_eq ?_))
      rw [show BitVec.ofInt t.bits 0 = 0#t.bits by rfl]
      exact e
    generalize (bitsOf t (lane v i)).toNat = n at hnz hlt
    have ht := top_log2 hnz
    have hl := top_lt ht hlt
    have e1 : (t.bits : Int) + 126 - fexp (n : Int) = ((t.bits - 1 - n.log2 : Nat) : Int) := by
      unfold fexp
      rw [Int.toNat_natCast, if_neg hnz]
      omega
    have hw : ∀ t ∈ laneTys, ∀ k < t.bits, min (t.unsigned.wrap (k : Nat) % 2 ^ (min t.bits 32)) (t.bits : Int) = (k : Nat) := by
      decide +kernel
    rw [e1, hw t h _ (by omega), Int.toNat_natCast]
    refine ⟨Int.natCast_nonneg _, by omega, ?_, ?_⟩
    · rw [show t.bits - 1 - (t.bits - 1 - n.log2) = n.log2 by omega]; exact ht.1
    · rw [show t.bits - (t.bits - 1 - n.log2) = n.log2 + 1 by omega]; exact ht.2

/-- `MaskedLeadingZeroCount`: zero where the mask is false. -/
theorem C52_masked_leading_zero_count {t : Ty} (h : t ∈ laneTys) {N : Nat} (hN : VecLanes t N) {m v : List Int}
    {b : Nat → Bool} (hm : IsMask t N m b) (hv : Reg t v) :
    Lanes t N (MaskedLeadingZeroCount t N m v) (fun i r =>
      (b i = false → r = 0) ∧ (b i = true → lane v i = 0 → r = t.bits) ∧
      (b i = true → lane v i ≠ 0 → 0 ≤ r ∧ r < t.bits ∧ 2 ^ (t.bits - 1 - r.toNat) ≤ (bitsOf t (lane v i)).toNat ∧
        (bitsOf t (lane v i)).toNat < 2 ^ (t.bits - r.toNat))) := by
  unfold MaskedLeadingZeroCount
  obtain ⟨l, e, hl, hP⟩ := C52_leading_zero_count h hN hv
  rw [e, ok_bind']
  refine (C38_if_then_else_zero h hN.2 hm hl).mono fun i x hi ex => ?_
  rw [ex]
  have := hP i hi
  refine ⟨fun hb => by rw [hb]; rfl, fun hb hz => ?_, fun hb hz => ?_⟩
  · rw [if_pos hb]; exact this.1 hz
  · rw [if_pos hb]; exact this.2 hz

theorem two_pow_odd (n : Nat) (hn : n ≠ 0) : ∃ k q, n = 2 ^ k * (2 * q + 1) := by
  induction n using Nat.strong_induction_on with
  | _ n ih =>
    by_cases h : n % 2 = 1
    · exact ⟨0, n / 2, by omega⟩
    · obtain ⟨k, q, e⟩ := ih (n / 2) (by omega) (by omega)
      refine ⟨k + 1, q, ?_⟩
      rw [pow_succ', mul_assoc, ← e]
      omega

/-- `w & -w` is the lowest set bit. -/
theorem lowest_bit {b : Nat} {w : BitVec b} (hw : w.toNat ≠ 0) :
    ∃ k, k < b ∧ (w &&& -w).toNat = 2 ^ k ∧ 2 ^ k ∣ w.toNat ∧ ¬ 2 ^ (k + 1) ∣ w.toNat := by
  obtain ⟨k, q, e⟩ : ∃ k q, w.toNat = 2 ^ k * (2 * q + 1) := two_pow_odd _ hw
  have hlt := w.isLt
  have hk : k < b := by
    have h1 : 2 ^ k ≤ w.toNat := by rw [e]; exact Nat.le_mul_of_pos_right _ (by omega)
    exact (Nat.pow_lt_pow_iff_right (by decide : 1 < 2)).1 (lt_of_le_of_lt h1 hlt)
  have hkp := Nat.two_pow_pos k
  have e' : w.toNat = 2 ^ (k + 1) * q + (2 ^ k - 1) + 1 := by
    rw [e, pow_succ]
    have : 2 ^ k * (2 * q + 1) = 2 ^ k * 2 * q + 2 ^ k := by ring
    omega
  have hneg : (-w).toNat = 2 ^ b - (2 ^ (k + 1) * q + (2 ^ k - 1) + 1) := by
    rw [BitVec.toNat_neg, ← e', Nat.mod_eq_of_lt (by omega)]
  have hlt' : 2 ^ (k + 1) * q + (2 ^ k - 1) < 2 ^ b := by omega
  have hsm : 2 ^ k - 1 < 2 ^ (k + 1) := by rw [pow_succ]; omega
  refine ⟨k, hk, ?_, ?_, ?_⟩
  · refine Nat.eq_of_testBit_eq fun j => ?_
    rw [BitVec.toNat_and, Nat.testBit_and, hneg, Nat.testBit_two_pow_sub_succ hlt', Nat.testBit_two_pow_mul_add _ hsm, e,
      Nat.testBit_two_pow_mul, Nat.testBit_two_pow, Nat.testBit_two_pow_sub_one]
    rcases Nat.lt_trichotomy j k with hj | rfl | hj
    · have h1 : ¬ j ≥ k := by omega
      have h2 : ¬ k = j := by omega
      simp [h1, h2]
    · have h1 : (2 * q + 1).testBit 0 = true := by simp
      simp [hk, h1]
    · have h1 : ¬ j < k + 1 := by omega
      have h2 : ¬ k = j := by omega
      have h3 : (2 * q + 1).testBit (j - k) = q.testBit (j - (k + 1)) := by
        rw [show j - k = (j - (k + 1)) + 1 by omega, Nat.testBit_add_one]
        congr 1
        omega
      rw [if_neg h1, h3]
      simp only [h2, decide_false]
      cases q.testBit (j - (k + 1)) <;> simp
  · exact ⟨_, e⟩
  · rintro ⟨c, hc⟩
    rw [e, pow_succ, mul_assoc] at hc
    have := Nat.eq_of_mul_eq_mul_left hkp hc
    omega

/-- `TrailingZeroCount`: the number of zero bits below the lowest set bit; all bits if there is none. -/
theorem C52_trailing_zero_count {t : Ty} (h : t ∈ laneTys) {N : Nat} (hN : VecLanes t N) {v : List Int}
    (hv : Reg t v) :
    Lanes t N (TrailingZeroCount t N v) (fun i r =>
      (lane v i = 0 → r = t.bits) ∧
      (lane v i ≠ 0 → 0 ≤ r ∧ r < t.bits ∧ 2 ^ r.toNat ∣ (bitsOf t (lane v i)).toNat ∧
        ¬ 2 ^ (r.toNat + 1) ∣ (bitsOf t (lane v i)).toNat)) := by
  obtain ⟨hum, hu, hub, hucap⟩ := unsigned_facts h
  have hcu : N ≤ cap t.unsigned := by rw [hucap]; exact hN.2
  have hset1 : t.unsigned.Has 127 := (lit_facts t h).1
  have hset2 : t.unsigned.Has t.bits := (lit_facts t h).2.1
  have him : (⟨t.bits, true⟩ : Ty) ∈ laneTys := (lit_facts t h).2.2.2.2
  have hci : N ≤ cap (⟨t.bits, true⟩ : Ty) := hN.2
  have hlow : ∀ i, i < N → t.unsigned.wrap ((⟨t.bits, true⟩ : Ty).ofBits (bitsOf ⟨t.bits, true⟩ ((⟨t.bits, true⟩ : Ty).wrap (lane v i)) &&&
      bitsOf ⟨t.bits, true⟩ ((⟨t.bits, true⟩ : Ty).wrap (-(⟨t.bits, true⟩ : Ty).wrap (lane v i))))) =
      ((bitsOf t (lane v i) &&& -bitsOf t (lane v i)).toNat : Int) := by
    intro i hi
    rw [wrap_unsigned h]
    congr 2
    have e1 : bitsOf t ((⟨t.bits, true⟩ : Ty).ofBits (bitsOf ⟨t.bits, true⟩ ((⟨t.bits, true⟩ : Ty).wrap (lane v i)) &&&
      bitsOf ⟨t.bits, true⟩ ((⟨t.bits, true⟩ : Ty).wrap (-(⟨t.bits, true⟩ : Ty).wrap (lane v i))))) =
      bitsOf ⟨t.bits, true⟩ ((⟨t.bits, true⟩ : Ty).wrap (lane v i)) &&&
      bitsOf ⟨t.bits, true⟩ ((⟨t.bits, true⟩ : Ty).wrap (-(⟨t.bits, true⟩ : Ty).wrap (lane v i))) :=
      ofInt_ofBits ⟨t.bits, true⟩ _
    rw [e1, bitsOf_wrap _ (bits_pos him), bitsOf_wrap _ (bits_pos him)]
    have e2 : bitsOf ⟨t.bits, true⟩ (-(⟨t.bits, true⟩ : Ty).wrap (lane v i)) = - bitsOf t (lane v i) := by
      show BitVec.ofInt t.bits _ = - BitVec.ofInt t.bits _
      rw [BitVec.ofInt_neg]
      congr 1
      exact ofInt_wrap ⟨t.bits, true⟩ _
    rw [e2]
    rfl
  have hng : ∀ i, i < N → NoRoundUp (((bitsOf t (lane v i) &&& -bitsOf t (lane v i)).toNat : Int)).toNat := by
    intro i hi
    rw [Int.toNat_natCast]
    by_cases hz : (bitsOf t (lane v i)).toNat = 0
    · have : (bitsOf t (lane v i) &&& -bitsOf t (lane v i)).toNat = 0 := by
        rw [BitVec.toNat_and, hz, Nat.zero_and]
      rw [this]
      exact noRoundUp_small (by decide)
    · obtain ⟨k, hk, e, -, -⟩ := lowest_bit hz
      rw [e]
      intro j hj h24
      have : k = j := by
        have h1 : Top (2 ^ k) k := ⟨le_rfl, Nat.pow_lt_pow_right (by decide) (by omega)⟩
        exact top_unique h1 hj
      subst this
      rw [Nat.pow_div (by omega) (by decide), show k - (k - 24) = 23 + 1 by omega, pow_succ]
      exact Nat.mul_mod_left _ _
  unfold TrailingZeroCount
  dsimp only
  refine Runs.lanes (Runs.bind (xneg him hci (is_bc_same (Is.refl (N := N) hv) him rfl hci)) fun ng hng' =>
    Runs.bind (xand him hci (is_bc_same (Is.refl (N := N) hv) him rfl hci) hng') fun lb hlb =>
    Runs.bind (xexp hum hu (vec_u h hN) (F := fun i => ((bitsOf t (lane v i) &&& -bitsOf t (lane v i)).toNat : Int))
      (by
        have := is_bc_same hlb hum hub hcu
        exact ⟨this.1, fun i hi => (this.2 i hi).trans (hlow i hi)⟩) hng) fun e he =>
    Runs.bind (xset hum hcu hset1) fun s hs =>
    Runs.bind (xsub hum hcu he hs) fun r hr => Runs.bind (xset hum hcu hset2) fun b hb => xminbits h hN.2 hr hb) hN.2
    fun i hi _ => ?_
  beta_reduce
  have hx := hv.lane_has (i := i) (lt_of_lt_of_le hi hN.2)
  refine ⟨fun hz => ?_, fun hz => ?_⟩
  · rw [hz]
    have : ∀ t ∈ laneTys, min (t.unsigned.wrap (fexp ((bitsOf t 0 &&& -bitsOf t 0).toNat : Int) - 127) % 2 ^ (min t.bits 32))
      (t.bits : Int) = t.bits := by decide +kernel
    exact this t h
  · have hnz : (bitsOf t (lane v i)).toNat ≠ 0 := by
      intro e
      refine hz (ofBits_inj t (bits_pos h) hx (has_zero h) (BitVec.eq_of_toNat_eq ?_))
      rw [show BitVec.ofInt t.bits 0 = 0#t.bits by rfl]
      exact e
    obtain ⟨k, hk, e, h1, h2⟩ := lowest_bit hnz
    have e1 : fexp ((2 ^ k : Nat) : Int) - 127 = (k : Int) := by
      unfold fexp
      rw [Int.toNat_natCast, if_neg (Nat.two_pow_pos k).ne', Nat.log2_two_pow]
      omega
    have hw : ∀ t ∈ laneTys, ∀ k < t.bits, min (t.unsigned.wrap (k : Nat) % 2 ^ (min t.bits 32)) (t.bits : Int) = (k : Nat) := by
      decide +kernel
    rw [e, e1, hw t h _ hk, Int.toNat_natCast]
    exact ⟨Int.natCast_nonneg _, by omega, h1, h2⟩

example : LeadingZeroCount i32 4 [0, 1, -1, 0x01FFFFFF] = .ok [32, 31, 0, 7] := by decide +kernel
example : TrailingZeroCount u64 2 [0, 0xFFFFFFFF00000000] = .ok [64, 32] := by decide +kernel
example : HighestSetBitIndex i16 2 [0x7FFF, 0, 0, 0, 0, 0, 0, 0] = .ok [14, -127, -127, -127, -127, -127, -127, -127] ∨
    HighestSetBitIndex i16 2 [0x7FFF, 0, 0, 0, 0, 0, 0, 0] = .ok [14, -127, 0, 0, 0, 0, 0, 0] := by decide +kernel
example : VecLanes u8 16 ∧ VecLanes i64 2 := ⟨⟨by decide, by decide⟩, ⟨by decide, by decide⟩⟩

end Emu
end Hwy
