import Verif.GenRotSpec

/-!
# C58: `BitShuffle` and `MultiRotateRight`
-/

namespace Hwy
namespace Emu
open CInt Finset

/-! ### Bits of bytes -/

theorem getLsbD_byte (x : Int) {w k : Nat} (hk : k < w) : (BitVec.ofInt w x).getLsbD k = decide (byteAt x (k / 8) / 2 ^ (k % 8) % 2 = 1) := by
  rw [getLsbD_ofInt x hk]
  congr 1
  unfold byteAt
  have e : (2 : Int) ^ k = 256 ^ (k / 8) * 2 ^ (k % 8) := by
    rw [← pow_256, ← pow_add, Nat.div_add_mod]
  rw [e, ← Int.ediv_ediv_of_nonneg (by positivity)]
  generalize x / 256 ^ (k / 8) = y
  have h : k % 8 < 8 := Nat.mod_lt _ (by norm_num)
  generalize k % 8 = r at h
  interval_cases r <;> norm_num <;> omega

theorem bit8 {x : Int} (h0 : 0 ≤ x) (h1 : x ≤ 255) {k : Nat} (hk : k < 8) : (bitsOf u8 x).getLsbD k = decide (x / 2 ^ k % 2 = 1) :=
  getLsbD_ofInt x hk

/-! ### BitShuffle -/

theorem byte_idx_eq : ∀ (c : Fin 256) (b : Fin 2), u8.ofBits (bitsOf u8 (u8.ofBits (bitsOf u8 7 &&& bitsOf u8 ((c : Int) / 8))) |||
    bitsOf u8 (u8.ofBits (~~~ bitsOf u8 7 &&& bitsOf u8 (8 * (b : Int))))) = (c : Int) / 8 % 8 + 8 * (b : Int) := by
  decide +kernel

theorem extract_bit (B : BitVec 8) {m s : Nat} (hm : m < 8) (hs : s < 8) {r : Nat} (hr : r = (m + 8 - s) % 8) :
    B.rotateLeft r &&& BitVec.ofNat 8 (2 ^ m) = if B.getLsbD s then BitVec.ofNat 8 (2 ^ m) else 0 := by
  apply BitVec.eq_of_getLsbD_eq
  intro j hj
  have hbit : (BitVec.ofNat 8 (2 ^ m)).getLsbD j = decide (j = m) := by
    rw [BitVec.getLsbD_ofNat]
    simp [hj, Nat.testBit_two_pow, eq_comm]
  rw [BitVec.getLsbD_and, hbit]
  by_cases e : j = m
  · subst e
    rw [BitVec.getLsbD_rotateLeft]
    have h8 : r % 8 = r := by omega
    rw [h8]
    have : (bif decide (j < r) then B.getLsbD (8 - r + j) else decide (j < 8) && B.getLsbD (j - r)) = B.getLsbD s := by
      by_cases h : j < r
      · simp only [h, decide_true, cond_true]
        congr 1
        omega
      · simp only [h, decide_false, cond_false, hj, decide_true, Bool.true_and]
        congr 1
        omega
    rw [this]
    cases hB : B.getLsbD s <;> simp [hbit]
  · simp only [e, decide_false, Bool.and_false]
    split
    · rw [hbit]; simp [e]
    · simp

theorem extract_bit' (B : BitVec u8.bits) {m s : Nat} (hm : m < 8) (hs : s < 8) :
    B.rotateLeft ((m + 8 - s) % 8) &&& bitsOf u8 (2 ^ m) = if B.getLsbD s then bitsOf u8 (2 ^ m) else 0 := by
  have e4 : bitsOf u8 (2 ^ m) = BitVec.ofNat 8 (2 ^ m) := by interval_cases m <;> rfl
  rw [e4]
  exact extract_bit B hm hs rfl

/-- The byte with only bit `m`. -/
theorem mask_bytes : Is u8 16 (BitCast u64 u8 [0x8040201008040201, 0x8040201008040201]) (fun j => 2 ^ (j % 8)) :=
  ⟨bitcast_reg (by decide) _, by decide +kernel⟩

theorem base_bytes : Is u8 16 (BitCast u64 u8 [0, 0x0808080808080808]) (fun j => 8 * ((j / 8 : Nat) : Int)) :=
  ⟨bitcast_reg (by decide) _, by decide +kernel⟩

theorem Is.mono {t : Ty} {N K : Nat} {v : List Int} {F : Nat → Int} (h : Is t N v F) (hK : K ≤ N) : Is t K v F :=
  ⟨h.1, fun i hi => h.2 i (by omega)⟩

theorem sum_filter8 {N i : Nat} (hi : i < N) (f : Nat → Int) :
    ∑ j ∈ (range (8 * N)).filter (fun j => j / 8 = i), f j = ∑ k ∈ range 8, f (8 * i + k) := by
  symm
  refine Finset.sum_bij (fun k _ => 8 * i + k) (fun k hk => ?_) (fun a _ b _ e => by omega) (fun j hj => ?_) (fun _ _ => rfl)
  · rw [mem_range] at hk
    rw [mem_filter, mem_range]
    omega
  · rw [mem_filter, mem_range] at hj
    exact ⟨j - 8 * i, by rw [mem_range]; omega, by omega⟩

theorem run_bitshuffle (ar : Bool) {t tI : Ty} (ht : t = u64 ∨ t = i64) (htI : tI = u8 ∨ tI = i8) {N : Nat} (hN : N = 1 ∨ N = 2)
    {v idx : List Int} {F I : Nat → Int} (hv : Is t N v F) (hi : Is tI (8 * N) idx I) :
    Runs t N (BitShuffle ar t tI N v idx)
      (fun i => ∑ k ∈ range 8, if (bitsOf t (F i)).getLsbD (I (8 * i + k) % 64).toNat then 2 ^ k else 0) := by
  have h : t ∈ laneTys := by rcases ht with rfl | rfl <;> decide
  have hI : tI ∈ laneTys := by rcases htI with rfl | rfl <;> decide
  have h8 : t.bits = 8 * 8 := by rcases ht with rfl | rfl <;> rfl
  have hIb : u8.bits = tI.bits := by rcases htI with rfl | rfl <;> rfl
  have hN8 : 8 * N ≤ cap u8 := by show 8 * N ≤ 16; omega
  have hNt : N ≤ cap t := by rcases ht with rfl | rfl <;> (show N ≤ 2) <;> omega
  have hN64 : N ≤ cap u64 := by show N ≤ 2; omega
  have m8 : u8 ∈ laneTys := by decide
  have hc := is_bc_same hi m8 hIb hN8
  have hcr : ∀ j, 0 ≤ u8.wrap (I j) ∧ u8.wrap (I j) ≤ 255 := fun j => has_wrap' m8 _
  unfold BitShuffle
  refine Runs.bind (xset m8 hN8 (by decide : u8.Has 7)) fun k7 hk7 => ?_
  refine Runs.bind (xshr m8 hN8 ar (by decide) (by decide) hc) fun ub hub => ?_
  unfold BitwiseIfThenElse
  rw [bind_assoc]
  refine Runs.bind (xand m8 hN8 hk7 hub) fun p hp => ?_
  rw [bind_assoc]
  refine Runs.bind (xandnot m8 hN8 hk7 (base_bytes.mono hN8)) fun q hq => ?_
  refine Runs.bind (Runs.congr (xor' m8 hN8 hp hq)
    (G := fun j => u8.wrap (I j) / 8 % 8 + 8 * ((j / 8 : Nat) : Int)) fun j hj => ?_) fun bi hbi => ?_
  · obtain ⟨n, hn⟩ := Int.eq_ofNat_of_zero_le (hcr j).1
    have h2 := (hcr j).2
    beta_reduce
    rw [hn] at h2 ⊢
    exact byte_idx_eq ⟨n, by omega⟩ ⟨j / 8, by omega⟩
  refine Runs.bind ((C38_iota m8 hN8 0).runs hN8 (F := fun j => u8.wrap (j : Int)) fun j x hj hx e => mod_unique m8 hx (by
    rw [zero_add] at e; exact e)) fun io hio => ?_
  refine Runs.bind (xsub m8 hN8 hio hc) fun rl hrl => ?_
  refine Runs.bind (xtable (show 8 * N ≤ 16 from hN8) (is_bytes h h8 hNt hv) hbi fun j hj => by
    have := hcr j; push_cast; omega) fun by' hby => ?_
  refine Runs.bind (run_rol m8 hN8 hby hrl ar) fun ro hro => ?_
  refine Runs.bind (xset (t := u64) (by decide) hN64 (by decide +kernel : u64.Has 0x8040201008040201)) fun ms hms => ?_
  have hmb : Is u8 (8 * N) (BitCast u64 u8 ms) (fun j => 2 ^ (j % 8)) := by
    refine is_congr (is_bytes (t := u64) (by decide) (m := 8) rfl hN64 hms) fun j hj => ?_
    have h16 : j < 16 := by omega
    have : ∀ j : Fin 16, byteAt 0x8040201008040201 (j % 8) = 2 ^ (j.val % 8) := by decide +kernel
    exact this ⟨j, h16⟩
  refine Runs.bind (Runs.congr (xand m8 hN8 hro hmb)
    (G := fun j => if (bitsOf t (F (j / 8))).getLsbD (I j % 64).toNat then 2 ^ (j % 8) else 0) fun j hj => ?_) fun ex hex => ?_
  · beta_reduce
    rw [bits_ofBits m8]
    have e1 : (u8.wrap (u8.wrap (j : Int) - u8.wrap (I j)) % (u8.bits : Int)).toNat = (j % 8 + 8 - (u8.wrap (I j) % 8).toNat) % 8 := by
      have e2 : u8.wrap (u8.wrap (j : Int) - u8.wrap (I j)) ≡ j - u8.wrap (I j) [ZMOD 8] :=
        ((modEq_wrap u8 _).trans ((modEq_wrap u8 j).sub_right _)).of_dvd (by decide)
      have e3 : u8.wrap (u8.wrap (j : Int) - u8.wrap (I j)) % 8 = (j - u8.wrap (I j)) % 8 := e2
      show (u8.wrap (u8.wrap (j : Int) - u8.wrap (I j)) % 8).toNat = _
      rw [e3]
      omega
    rw [e1]
    rw [extract_bit' _ (show j % 8 < 8 by omega) (show (u8.wrap (I j) % 8).toNat < 8 by omega)]
    have hbr := byteAt_range (F ((u8.wrap (I j) / 8 % 8 + 8 * ((j / 8 : Nat) : Int)).toNat / 8))
      ((u8.wrap (I j) / 8 % 8 + 8 * ((j / 8 : Nat) : Int)).toNat % 8)
    have e5 : (bitsOf u8 (byteAt (F ((u8.wrap (I j) / 8 % 8 + 8 * ((j / 8 : Nat) : Int)).toNat / 8))
        ((u8.wrap (I j) / 8 % 8 + 8 * ((j / 8 : Nat) : Int)).toNat % 8))).getLsbD (u8.wrap (I j) % 8).toNat =
        (bitsOf t (F (j / 8))).getLsbD (I j % 64).toNat := by
      rw [bit8 hbr.1 hbr.2 (by omega)]
      have hlt : (I j % 64).toNat < t.bits := by rw [h8]; omega
      unfold bitsOf
      rw [getLsbD_byte _ hlt]
      have em : u8.wrap (I j) % 64 = I j % 64 := (modEq_wrap u8 (I j)).of_dvd (by decide)
      have a1 : (u8.wrap (I j) / 8 % 8 + 8 * ((j / 8 : Nat) : Int)).toNat / 8 = j / 8 := by omega
      have a2 : (u8.wrap (I j) / 8 % 8 + 8 * ((j / 8 : Nat) : Int)).toNat % 8 = (I j % 64).toNat / 8 := by omega
      have a3 : (u8.wrap (I j) % 8).toNat = (I j % 64).toNat % 8 := by omega
      rw [a1, a2, a3]
    rw [e5]
    have hp : ∀ k : Fin 8, u8.ofBits (bitsOf u8 (2 ^ k.val)) = 2 ^ k.val := by decide +kernel
    split
    · exact hp ⟨j % 8, by omega⟩
    · rfl
  refine Runs.bind ((C38_sums_of_8 (Or.inl rfl) (show 8 * N ≤ 16 from hN8) hex.1).runs (t := u64) (N := (8 * N + 7) / 8)
    (by show _ ≤ 2; omega) (F := fun i => ∑ k ∈ range 8, if (bitsOf t (F i)).getLsbD (I (8 * i + k) % 64).toNat then 2 ^ k else 0)
    fun i x hi hx e => ?_) fun su hsu => ?_
  · rw [e, sum_filter8 (show i < N by omega)]
    refine Finset.sum_congr rfl fun k hk => ?_
    rw [mem_range] at hk
    rw [hex.2 _ (by omega)]
    beta_reduce
    rw [show (8 * i + k) / 8 = i by omega, show (8 * i + k) % 8 = k by omega]
  rw [show (8 * N + 7) / 8 = N by omega] at hsu
  refine Runs.congr (Runs.ret (is_bc_same hsu h h8 hNt)) fun i hi => wrap_has' h ?_
  have b1 : ∀ k ∈ range 8, (0 : Int) ≤ (if (bitsOf t (F i)).getLsbD (I (8 * i + k) % 64).toNat then 2 ^ k else 0) := fun k _ => by
    split_ifs <;> positivity
  have b2 : ∑ k ∈ range 8, (if (bitsOf t (F i)).getLsbD (I (8 * i + k) % 64).toNat then (2 : Int) ^ k else 0) ≤ ∑ k ∈ range 8, 2 ^ k :=
    Finset.sum_le_sum fun k _ => by split_ifs <;> first | exact le_rfl | positivity
  have b3 : ∑ k ∈ range 8, (2 : Int) ^ k = 255 := by decide
  have b4 := Finset.sum_nonneg b1
  have b5 : t.lo ≤ 0 ∧ 255 ≤ t.hi := by rcases ht with rfl | rfl <;> decide
  exact ⟨by omega, by omega⟩

/-- `BitShuffle(v, idx)`: bit `k < 8` of lane `i` of the result is bit `idx[8 * i + k]` (modulo 64) of `v[i]`, the other bits
are zero. -/
theorem C58_bit_shuffle (ar : Bool) {t tI : Ty} (ht : t = u64 ∨ t = i64) (htI : tI = u8 ∨ tI = i8) {N : Nat} (hN : N = 1 ∨ N = 2)
    {v idx : List Int} (hv : Reg t v) (hi : Reg tI idx) :
    Lanes t N (BitShuffle ar t tI N v idx) (fun i r => r =
      ∑ k ∈ range 8, if (bitsOf t (lane v i)).getLsbD (lane idx (8 * i + k) % 64).toNat then 2 ^ k else 0) :=
  (run_bitshuffle ar ht htI hN (Is.refl hv) (Is.refl hi)).lanes
    (by rcases ht with rfl | rfl <;> (show N ≤ 2) <;> omega) fun _ _ _ => rfl

end Emu
end Hwy
