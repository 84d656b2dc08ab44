import Verif.GenBits
import Verif.GenLanes2
import Verif.GenAESSpec

/-!
# C52: counting and reversing bits
-/

namespace Hwy
namespace Emu
open CInt Flt

/-! ### `PopulationCount` -/

/-- Number of set bits among the lowest `b` bits. -/
def popc (b x : Nat) : Nat := (List.range b).countP (fun k => x.testBit k)

theorem popc_add (a b x : Nat) : popc (a + b) x = popc a x + popc b (x / 2 ^ a) := by
  unfold popc
  rw [List.range_add, List.countP_append, List.countP_map]
  congr 2
  funext k
  simp only [Function.comp]
  rw [Nat.testBit_div_two_pow, Nat.add_comm]

theorem popc_mod (b x : Nat) : popc b (x % 2 ^ b) = popc b x := by
  unfold popc
  refine List.countP_congr fun k hk => ?_
  rw [Nat.testBit_mod_two_pow]
  simp [List.mem_range.1 hk]

theorem popc_le (b x : Nat) : popc b x ≤ b := by
  have := List.countP_le_length (p := fun k => x.testBit k) (l := List.range b)
  rwa [List.length_range] at this

theorem xpopc8 {N : Nat} (hN : N ≤ 8 ∨ N = 16) {v : List Int} {F : Nat → Int} (hv : Is u8 N v F) :
    Runs u8 N (PopulationCount8 N v) (fun i => (popc 8 (F i).toNat : Nat)) := by
  have hc : N ≤ cap u8 := by show N ≤ 16; omega
  unfold PopulationCount8
  split_ifs with h
  · obtain rfl : N = 16 := by omega
    refine Runs.congr (by vrun) fun i hi => ?_
    obtain ⟨n, hn, e⟩ := nat_of_u8 (hv.has hc hi)
    rw [e]
    clear e
    revert n
    decide +kernel
  · refine Runs.congr (by vrun) fun i hi => ?_
    obtain ⟨n, hn, e⟩ := nat_of_u8 (hv.has hc hi)
    rw [e]
    clear e
    revert n
    decide +kernel

theorem wrap_of_lt {t : Ty} (h : t ∈ laneTys) (hu : t.sgn = false) {x : Int} (h0 : 0 ≤ x) (h1 : x < 2 ^ t.bits) :
    t.wrap x = x := by
  refine wrap_has' h ⟨?_, ?_⟩
  · unfold Ty.lo; rw [hu]; exact h0
  · unfold Ty.hi; rw [hu]; simp only [Bool.false_eq_true, if_false]; omega

theorem has_u {t : Ty} (hu : t.sgn = false) {x : Int} (hx : t.Has x) : 0 ≤ x ∧ x < 2 ^ t.bits := by
  obtain ⟨h1, h2⟩ := hx
  unfold Ty.lo at h1
  unfold Ty.hi at h2
  rw [hu] at h1 h2
  simp only [Bool.false_eq_true, if_false] at h1 h2
  omega

/-- Adding the counts of the two halves of every lane. -/
theorem pop_double {s t : Ty} (hs : s ∈ laneTys) (ht : t ∈ laneTys) (hb : t.bits = 2 * s.bits)
    (hsu : s.sgn = false) (htu : t.sgn = false) {N : Nat} (hN : N ≤ cap t) {v : List Int} {F : Nat → Int}
    (hv : Is t N v F) {P : List Int → M (List Int)}
    (hP : ∀ w G, Is s (2 * N) w G → Runs s (2 * N) (P w) (fun i => (popc s.bits (G i).toNat : Nat))) :
    Runs t N (do
      let vals := BitCast s t (← P (BitCast t s v))
      Add t N (← ShiftRight true t N s.bits vals) (← And t N vals (← Set t N 0xFF)))
      (fun i => (popc t.bits (F i).toNat : Nat)) := by
  have hb8 : ∀ t ∈ laneTys, 8 ≤ t.bits ∧ t.bits ≤ 64 := by decide
  have h8 := hb8 s hs
  have h16 := hb8 t ht
  obtain ⟨p, ep, hp⟩ := hP _ _ (is_bc_narrow hv ht hs hb hN)
  have hvals := is_bc_wide hp hs ht hb hN
  rw [ep, ok_bind']
  dsimp only
  generalize BitCast s t p = vals at hvals ⊢
  have h255' : ∀ t ∈ laneTys, t.sgn = false → t.Has 255 := by decide
  have h255 := h255' t ht htu
  refine Runs.congr (by
    apply Runs.bind (xshr ht hN true (k := s.bits) (by omega) (by omega) hvals); intro x1 h1
    apply Runs.bind (xset ht hN h255); intro x2 h2
    apply Runs.bind (xand ht hN hvals h2); intro x3 h3
    exact xadd ht hN h1 h3) fun i hi => ?_
  beta_reduce
  have hx := has_u htu (hv.has hN hi)
  have e0 : 2 * i / 2 = i := by omega
  have e1 : (2 * i + 1) / 2 = i := by omega
  have e2 : 2 * i % 2 = 0 := by omega
  have e3 : (2 * i + 1) % 2 = 1 := by omega
  rw [e0, e1, e2, e3, Nat.mul_zero, Nat.mul_one, pow_zero, Int.ediv_one]
  generalize F i = x at hx ⊢
  obtain ⟨n, rfl⟩ := Int.eq_ofNat_of_zero_le hx.1
  have hpw : (2 : Int) ^ t.bits = 2 ^ s.bits * 2 ^ s.bits := by rw [hb, two_mul, pow_add]
  have hpn : (2 : Nat) ^ t.bits = 2 ^ s.bits * 2 ^ s.bits := by rw [hb, two_mul, pow_add]
  have hn : n < 2 ^ t.bits := by exact_mod_cast hx.2
  have w1 : s.wrap (n : Int) = ((n % 2 ^ s.bits : Nat) : Int) := by
    have hlt : n % 2 ^ s.bits < 2 ^ s.bits := Nat.mod_lt _ (Nat.two_pow_pos _)
    refine Eq.trans (wrap_congr s ?_) (wrap_of_lt hs hsu (Int.natCast_nonneg _) (by exact_mod_cast hlt))
    push_cast
    rw [Int.emod_emod_of_dvd _ (dvd_refl _)]
  have w2 : s.wrap ((n : Int) / 2 ^ s.bits) = ((n / 2 ^ s.bits : Nat) : Int) := by
    have hlt : n / 2 ^ s.bits < 2 ^ s.bits := Nat.div_lt_of_lt_mul (by rw [← hpn]; exact hn)
    rw [wrap_of_lt hs hsu]
    · push_cast; rfl
    · positivity
    · exact_mod_cast hlt
  rw [w1, w2]
  simp only [Int.toNat_natCast]
  rw [popc_mod]
  have hP := popc_add s.bits s.bits n
  rw [← two_mul, ← hb] at hP
  have l1 := popc_le s.bits n
  have l2 := popc_le s.bits (n / 2 ^ s.bits)
  rw [hP]
  generalize popc s.bits n = a at l1 ⊢
  generalize popc s.bits (n / 2 ^ s.bits) = b at l2 ⊢
  have hs2 : s.bits < 2 ^ s.bits := Nat.lt_two_pow_self
  have h256 : (256 : Nat) ∣ 2 ^ s.bits := pow_dvd_pow 2 h8.1
  obtain ⟨q, hq⟩ := h256
  have w3 : t.wrap ((a : Int) % 2 ^ s.bits + 2 ^ s.bits * (b : Int)) = ((a + 2 ^ s.bits * b : Nat) : Int) := by
    rw [Int.emod_eq_of_lt (Int.natCast_nonneg _) (by exact_mod_cast (show a < 2 ^ s.bits by omega))]
    rw [show ((a : Int) + 2 ^ s.bits * (b : Int)) = ((a + 2 ^ s.bits * b : Nat) : Int) by push_cast; rfl]
    refine wrap_of_lt ht htu (Int.natCast_nonneg _) ?_
    have : a + 2 ^ s.bits * b < 2 ^ s.bits * 2 ^ s.bits := by
      calc a + 2 ^ s.bits * b < 2 ^ s.bits + 2 ^ s.bits * b := by omega
        _ = 2 ^ s.bits * (b + 1) := by ring
        _ ≤ _ := Nat.mul_le_mul_left _ (by omega)
    rw [← hpn] at this
    exact_mod_cast this
  rw [w3]
  have w4 : t.ofBits (bitsOf t ((a + 2 ^ s.bits * b : Nat) : Int) &&& bitsOf t 255) = (a : Int) := by
    have hbt : s.bits ≤ 32 := by omega
    have key : bitsOf t ((a + 2 ^ s.bits * b : Nat) : Int) &&& bitsOf t 255 = bitsOf t (a : Int) := by
      apply BitVec.eq_of_toNat_eq
      unfold bitsOf
      rw [show (255 : Int) = ((255 : Nat) : Int) by rfl, BitVec.ofInt_natCast, BitVec.ofInt_natCast, BitVec.ofInt_natCast,
        BitVec.toNat_and, BitVec.toNat_ofNat, BitVec.toNat_ofNat, BitVec.toNat_ofNat]
      have h2 : 2 ^ 8 ≤ 2 ^ t.bits := Nat.pow_le_pow_right (by decide) h16.1
      rw [Nat.mod_eq_of_lt (a := 255) (by omega), Nat.mod_eq_of_lt (a := a) (by omega), Nat.mod_eq_of_lt (by
        calc a + 2 ^ s.bits * b < 2 ^ s.bits + 2 ^ s.bits * b := by omega
          _ = 2 ^ s.bits * (b + 1) := by ring
          _ ≤ 2 ^ s.bits * 2 ^ s.bits := Nat.mul_le_mul_left _ (by omega)
          _ = _ := hpn.symm)]
      rw [show (255 : Nat) = 2 ^ 8 - 1 by rfl, Nat.and_two_pow_sub_one_eq_mod, hq, mul_assoc, Nat.add_mul_mod_self_left,
        Nat.mod_eq_of_lt (by omega)]
    rw [key]
    have ha : t.Has (a : Int) := by
      have := hb8 t ht
      refine ⟨?_, ?_⟩
      · unfold Ty.lo; rw [htu]; exact Int.natCast_nonneg _
      · unfold Ty.hi; rw [htu]; simp only [Bool.false_eq_true, if_false]
        have : s.bits < 2 ^ t.bits := by
          calc s.bits < 2 ^ s.bits := hs2
            _ ≤ _ := Nat.pow_le_pow_right (by decide) (by omega)
        have : a < 2 ^ t.bits := by omega
        have : (a : Int) < 2 ^ t.bits := by exact_mod_cast this
        omega
    exact (bits_unique ht ha rfl).symm
  rw [w4]
  have w5 : ((a + 2 ^ s.bits * b : Nat) : Int) / 2 ^ s.bits = (b : Int) := by
    have : (a + 2 ^ s.bits * b) / 2 ^ s.bits = b := by
      rw [Nat.add_mul_div_left _ _ (Nat.two_pow_pos _), Nat.div_eq_of_lt (by omega), Nat.zero_add]
    have h2 : (((a + 2 ^ s.bits * b : Nat) / 2 ^ s.bits : Nat) : Int) = (b : Int) := by rw [this]
    rw [← h2]
    push_cast
    rfl
  rw [w5, wrap_of_lt ht htu (by positivity) ?_]
  · push_cast; ring
  · have : 2 * s.bits < 2 ^ t.bits := by rw [hb]; exact Nat.lt_two_pow_self
    have : b + a < 2 ^ t.bits := by omega
    exact_mod_cast this

theorem xpopc16 {N : Nat} (hN : N ≤ 4 ∨ N = 8) {v : List Int} {F : Nat → Int} (hv : Is u16 N v F) :
    Runs u16 N (PopulationCount16 N v) (fun i => (popc 16 (F i).toNat : Nat)) :=
  pop_double (s := u8) (t := u16) (by decide) (by decide) rfl rfl rfl (by show N ≤ 8; omega) hv
    (fun w G hw => xpopc8 (by omega) hw)

theorem xpopc32 {N : Nat} (hN : N ≤ 2 ∨ N = 4) {v : List Int} {F : Nat → Int} (hv : Is u32 N v F) :
    Runs u32 N (PopulationCount32 N v) (fun i => (popc 32 (F i).toNat : Nat)) :=
  pop_double (s := u16) (t := u32) (by decide) (by decide) rfl rfl rfl (by show N ≤ 4; omega) hv
    (fun w G hw => xpopc16 (by omega) hw)

theorem xpopc64 {N : Nat} (hN : N ≤ 1 ∨ N = 2) {v : List Int} {F : Nat → Int} (hv : Is u64 N v F) :
    Runs u64 N (PopulationCount64 N v) (fun i => (popc 64 (F i).toNat : Nat)) :=
  pop_double (s := u32) (t := u64) (by decide) (by decide) rfl rfl rfl (by show N ≤ 2; omega) hv
    (fun w G hw => xpopc32 (by omega) hw)

/-- Lane counts of the vector types: powers of two up to the capacity. -/
def VecLanes (t : Ty) (N : Nat) : Prop := N ∈ [1, 2, 4, 8, 16] ∧ N ≤ cap t

/-- `PopulationCount`: the number of set bits of every lane. -/
theorem C52_population_count {t : Ty} (h : t ∈ laneTys) (hu : t.sgn = false) {N : Nat} (hN : VecLanes t N)
    {v : List Int} (hv : Reg t v) :
    Lanes t N (PopulationCount t N v) (fun i r =>
      r = ((List.range t.bits).countP (fun k => (lane v i).toNat.testBit k) : Nat)) := by
  obtain ⟨h1, h2⟩ := hN
  have hc : ∀ t ∈ laneTys, t.sgn = false → t = u8 ∨ t = u16 ∨ t = u32 ∨ t = u64 := by decide
  have c : cap u8 = 16 ∧ cap u16 = 8 ∧ cap u32 = 4 ∧ cap u64 = 2 := by decide
  simp only [List.mem_cons, List.not_mem_nil, or_false] at h1
  unfold PopulationCount
  rcases hc t h hu with rfl | rfl | rfl | rfl
  · rw [if_pos (by decide)]
    exact (xpopc8 (by omega) (Is.refl hv)).lanes h2 (fun i _ _ => rfl)
  · rw [if_neg (by decide), if_pos (by decide)]
    exact (xpopc16 (by omega) (Is.refl hv)).lanes h2 (fun i _ _ => rfl)
  · rw [if_neg (by decide), if_neg (by decide), if_pos (by decide)]
    exact (xpopc32 (by omega) (Is.refl hv)).lanes h2 (fun i _ _ => rfl)
  · rw [if_neg (by decide), if_neg (by decide), if_neg (by decide)]
    exact (xpopc64 (by omega) (Is.refl hv)).lanes h2 (fun i _ _ => rfl)

example : PopulationCount u64 2 [0xF0F0F0F0F0F0F0F1, 7] = .ok [33, 3] := by decide +kernel

/-! ### Reversal -/

theorem lane_bits_ext {t : Ty} (h : t ∈ laneTys) {x y : Int} (hx : t.Has x) (hy : t.Has y)
    (e : ∀ k, k < t.bits → (bitsOf t x).getLsbD k = (bitsOf t y).getLsbD k) : x = y :=
  ofBits_inj t (bits_pos h) hx hy (BitVec.eq_of_getLsbD_eq e)

/-- `ReverseLaneBytes`: byte `j` of every lane becomes byte `bytes - 1 - j`. -/
theorem C52_reverse_lane_bytes {t : Ty} (h : t ∈ laneTys) (hb : t.bits ≠ 8) {N : Nat} (hN : N ≤ cap t)
    {v : List Int} (hv : Reg t v) :
    Lanes t N (ReverseLaneBytes t N v) (fun i r => ∀ j, j < t.bits / 8 → ∀ k, k < 8 →
      (bitsOf t r).getLsbD (8 * j + k) = (bitsOf t (lane v i)).getLsbD (8 * (t.bits / 8 - 1 - j) + k)) := by
  have hcap : ∀ t ∈ laneTys, t.bits * cap t = 128 ∧ t.bits % 8 = 0 ∧ 8 ≤ t.bits := by decide
  obtain ⟨hcap1, hcap2, hcap3⟩ := hcap t h
  have hw : t.bits / 8 * N ≤ 16 := by
    have : t.bits = 8 * (t.bits / 8) := by omega
    have h2 : t.bits / 8 * cap t = 16 := by
      have : 8 * (t.bits / 8 * cap t) = 128 := by rw [← mul_assoc, ← this, hcap1]
      omega
    calc _ ≤ t.bits / 8 * cap t := Nat.mul_le_mul_left _ hN
      _ = 16 := h2
  -- bytes of `v`
  have hbytes : Is u8 (t.bits / 8 * N) (BitCast t u8 v) (lane (BitCast t u8 v)) := Is.refl (bitcast_reg (by decide) v)
  have hrev : Runs u8 (t.bits / 8 * N) (if t.bits = 16 then Reverse2 0 (cap u8) (2 * N) (BitCast t u8 v)
      else if t.bits = 32 then Reverse4 0 (cap u8) (4 * N) (BitCast t u8 v)
      else Reverse8 0 (cap u8) (8 * N) (BitCast t u8 v)) (fun i => lane (BitCast t u8 v) (i ^^^ (t.bits / 8 - 1))) := by
    have hc : ∀ t ∈ laneTys, t.bits ≠ 8 → t.bits = 16 ∨ t.bits = 32 ∨ t.bits = 64 := by decide
    rcases hc t h hb with e | e | e
    · rw [e] at hw hbytes ⊢
      rw [if_pos rfl]
      exact xreverse2 hbytes (by decide) hw ⟨N, rfl⟩
    · rw [e] at hw hbytes ⊢
      rw [if_neg (by decide), if_pos rfl]
      exact xreverse4 hbytes (by decide) hw ⟨N, rfl⟩
    · rw [e] at hw hbytes ⊢
      rw [if_neg (by decide), if_neg (by decide)]
      exact xreverse8 hbytes (by decide) hw ⟨N, rfl⟩
  obtain ⟨r, er, hr⟩ := hrev
  unfold ReverseLaneBytes
  dsimp only
  rw [er, ok_bind']
  refine ⟨_, rfl, bitcast_reg h r, fun i hi j hj k hk => ?_⟩
  rw [bitcast_bit (tF := u8) (by decide) h hr.1.len (by omega) (by omega)]
  have e1 : (t.bits * i + (8 * j + k)) / u8.bits = t.bits / 8 * i + j := by
    show _ / 8 = _
    have : t.bits * i = 8 * (t.bits / 8 * i) := by rw [← mul_assoc]; congr 1; omega
    omega
  have e2 : (t.bits * i + (8 * j + k)) % u8.bits = k := by
    show _ % 8 = _
    have : t.bits * i = 8 * (t.bits / 8 * i) := by rw [← mul_assoc]; congr 1; omega
    omega
  have hlt : t.bits / 8 * i + j < t.bits / 8 * N := by
    calc t.bits / 8 * i + j < t.bits / 8 * i + t.bits / 8 := by omega
      _ = t.bits / 8 * (i + 1) := by ring
      _ ≤ _ := Nat.mul_le_mul_left _ hi
  have e3 : ((t.bits / 8 * i + j) ^^^ (t.bits / 8 - 1)) = t.bits / 8 * i + (t.bits / 8 - 1 - j) := by
    have hc : ∀ t ∈ laneTys, t.bits / 8 ∈ [1, 2, 4, 8] := by decide
    have hx := hc t h
    clear hcap1 hcap2 hcap3 hw er hr hbytes e1 e2 hv hN
    simp only [List.mem_cons, List.not_mem_nil, or_false] at hx
    have hg : ∀ k : Nat, k ≤ 3 → t.bits / 8 = 2 ^ k → (t.bits / 8 * i + j) ^^^ (t.bits / 8 - 1) =
        t.bits / 8 * i + (t.bits / 8 - 1 - j) := by
      intro k hk e
      rw [e] at hj ⊢
      rw [xor_group _ k hk, Nat.mul_add_div (Nat.two_pow_pos k), Nat.mul_add_mod, Nat.div_eq_of_lt hj, Nat.mod_eq_of_lt hj,
        Nat.add_zero]
    rcases hx with e | e | e | e
    · exact hg 0 (by decide) e
    · exact hg 1 (by decide) e
    · exact hg 2 (by decide) e
    · exact hg 3 (by decide) e
  rw [e1, e2, hr.2 _ hlt]
  beta_reduce
  have hlt3 : t.bits / 8 * i + (t.bits / 8 - 1 - j) < cap u8 := by
    show _ < 16
    calc t.bits / 8 * i + (t.bits / 8 - 1 - j) < t.bits / 8 * i + t.bits / 8 := by omega
      _ = t.bits / 8 * (i + 1) := by ring
      _ ≤ t.bits / 8 * N := Nat.mul_le_mul_left _ hi
      _ ≤ 16 := hw
  rw [e3, bitcast_bit (tT := u8) h (by decide) hv.len hlt3 hk]
  have hlt2 : t.bits / 8 - 1 - j < t.bits / 8 := by omega
  generalize t.bits / 8 - 1 - j = j' at hlt2
  have e4 : (u8.bits * (t.bits / 8 * i + j') + k) = t.bits * i + (8 * j' + k) := by
    show 8 * _ + k = _
    have : t.bits * i = 8 * (t.bits / 8 * i) := by rw [← mul_assoc]; congr 1; omega
    omega
  rw [e4, Nat.mul_add_div (by omega), Nat.mul_add_mod, Nat.div_eq_of_lt (by omega), Nat.mod_eq_of_lt (by omega),
    Nat.add_zero]

macro_rules | `(tactic| vis) => `(tactic| (with_reducible apply is_bc_same) <;> vside)

theorem xrev8 {t : Ty} (h : t ∈ laneTys) (hb : t.bits = 8) {N : Nat} (hN : N ≤ 16) {v : List Int} {F : Nat → Int}
    (hv : Is t N v F) : Lanes t N (ReverseBits8 t N v) (fun i x =>
      ∀ k, k < 8 → (bitsOf t x).getLsbD k = (bitsOf t (F i)).getLsbD (7 - k)) := by
  have hc : ∀ t ∈ laneTys, t.bits = 8 → t = u8 ∨ t = i8 := by decide
  rcases hc t h hb with rfl | rfl
  · have hN8 : N ≤ cap u8 := hN
    apply Runs.lanes
    · unfold ReverseBits8 UI8ReverseBitsStep
      simp only [bind_assoc, show u8.unsigned = u8 from rfl]
      vrun
    · exact hN8
    · intro i hi _
      obtain ⟨n, hn, e⟩ := nat_of_u8 (hv.has hN8 hi)
      rw [e]
      clear e
      revert n
      decide +kernel
  · have hN8 : N ≤ cap u8 := hN
    have hNi : N ≤ cap i8 := hN
    apply Runs.lanes
    · unfold ReverseBits8 UI8ReverseBitsStep
      simp only [bind_assoc, show i8.unsigned = u8 from rfl]
      vrun
    · exact hN8
    · intro i hi _
      have hx := hv.has hNi hi
      obtain ⟨n, hn, e⟩ : ∃ n : Nat, n < 256 ∧ F i = n - 128 := by
        have h1 : -128 ≤ F i := hx.1
        have h2 : F i ≤ 127 := hx.2
        exact ⟨(F i + 128).toNat, by omega, by omega⟩
      rw [e]
      clear e hx
      revert n
      decide +kernel

/-- `ReverseBits`: bit `k` of every lane becomes bit `bits - 1 - k`. -/
theorem C52_reverse_bits {t : Ty} (h : t ∈ laneTys) {N : Nat} (hN : N ≤ cap t) {v : List Int} (hv : Reg t v) :
    Lanes t N (ReverseBits t N v) (fun i r => ∀ k, k < t.bits →
      (bitsOf t r).getLsbD k = (bitsOf t (lane v i)).getLsbD (t.bits - 1 - k)) := by
  unfold ReverseBits
  by_cases hb : t.bits = 8
  · rw [if_pos hb]
    have hc : cap t = 16 := by unfold cap; rw [hb]
    refine (xrev8 h hb (by omega) (Is.refl hv)).mono (fun i x hi e k hk => ?_)
    rw [e k (by omega)]
    congr 1
    omega
  · rw [if_neg hb]
    have hcap : ∀ t ∈ laneTys, t.bits * cap t = 128 ∧ t.bits % 8 = 0 ∧ 8 ≤ t.bits := by decide
    obtain ⟨hcap1, hcap2, hcap3⟩ := hcap t h
    have hw : t.bits / 8 * N ≤ 16 := by
      have : t.bits = 8 * (t.bits / 8) := by omega
      have h2 : t.bits / 8 * cap t = 16 := by
        have : 8 * (t.bits / 8 * cap t) = 128 := by rw [← mul_assoc, ← this, hcap1]
        omega
      calc _ ≤ t.bits / 8 * cap t := Nat.mul_le_mul_left _ hN
        _ = 16 := h2
    obtain ⟨r, er, hr, hrl⟩ := xrev8 (t := u8) (by decide) rfl hw (Is.refl (N := t.bits / 8 * N)
      (bitcast_reg (tF := t) (tT := u8) (by decide) v))
    rw [er, ok_bind']
    refine (C52_reverse_lane_bytes h hb hN (bitcast_reg h r)).mono (fun i x hi e k hk => ?_)
    have ek := e (k / 8) (by omega) (k % 8) (by omega)
    rw [Nat.div_add_mod] at ek
    have hj : t.bits / 8 - 1 - k / 8 < t.bits / 8 := by omega
    rw [ek, bitcast_bit (tF := u8) (by decide) h hr.len (by omega) (by omega)]
    have e1 : (t.bits * i + (8 * (t.bits / 8 - 1 - k / 8) + k % 8)) / u8.bits = t.bits / 8 * i + (t.bits / 8 - 1 - k / 8) := by
      show _ / 8 = _
      have : t.bits * i = 8 * (t.bits / 8 * i) := by rw [← mul_assoc]; congr 1; omega
      omega
    have e2 : (t.bits * i + (8 * (t.bits / 8 - 1 - k / 8) + k % 8)) % u8.bits = k % 8 := by
      show _ % 8 = _
      have : t.bits * i = 8 * (t.bits / 8 * i) := by rw [← mul_assoc]; congr 1; omega
      omega
    have hlt : t.bits / 8 * i + (t.bits / 8 - 1 - k / 8) < t.bits / 8 * N := by
      calc t.bits / 8 * i + (t.bits / 8 - 1 - k / 8) < t.bits / 8 * i + t.bits / 8 := by omega
        _ = t.bits / 8 * (i + 1) := by ring
        _ ≤ _ := Nat.mul_le_mul_left _ hi
    rw [e1, e2, hrl _ hlt _ (by omega), bitcast_bit (tT := u8) h (by decide) hv.len (by show _ < 16; omega)
      (by show _ < 8; omega)]
    have e4 : (u8.bits * (t.bits / 8 * i + (t.bits / 8 - 1 - k / 8)) + (7 - k % 8)) = t.bits * i + (t.bits - 1 - k) := by
      show 8 * _ + _ = _
      have : t.bits * i = 8 * (t.bits / 8 * i) := by rw [← mul_assoc]; congr 1; omega
      omega
    rw [e4, Nat.mul_add_div (by omega), Nat.mul_add_mod, Nat.div_eq_of_lt (by omega), Nat.mod_eq_of_lt (by omega),
      Nat.add_zero]

example : ReverseBits i16 2 [1, -2, 0, 0, 0, 0, 0, 0] = .ok [-32768, 32767, 0, 0, 0, 0, 0, 0] := by decide +kernel
example : ReverseLaneBytes u32 1 [0x12345678, 0, 0, 0] = .ok [0x78563412, 0, 0, 0] := by decide +kernel

end Emu
end Hwy
