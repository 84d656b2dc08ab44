import Verif.GenShufSpec2

/-!
# C59: sums of absolute differences of groups of four bytes
-/

namespace Hwy
namespace Emu
open CInt Finset

/-- Specification: the sum of absolute differences of the four values from `f j` and from `g k` on. -/
def sad4 (f g : Nat → Int) (j k : Nat) : Int := ∑ x ∈ range 4, |f (j + x) - g (k + x)|

theorem bitcast_bitcast {tF tM tT : Ty} (hF : tF ∈ laneTys) (hM : tM ∈ laneTys) (hT : tT ∈ laneTys) {v : List Int}
    (hv : v.length = cap tF) : BitCast tM tT (BitCast tF tM v) = BitCast tF tT v := by
  have hb : ∀ t ∈ laneTys, t.bits * cap t = 128 := by decide
  refine List.ext_getElem (by rw [(bitcast_reg hT _).len, (bitcast_reg hT _).len]) fun j h1 h2 => ?_
  have hj : j < cap tT := by rw [(bitcast_reg hT _).len] at h1; exact h1
  have l1 : (BitCast tM tT (BitCast tF tM v))[j] = lane (BitCast tM tT (BitCast tF tM v)) j := by
    unfold lane; rw [List.getD_eq_getElem?_getD, List.getElem?_eq_getElem h1]; rfl
  have l2 : (BitCast tF tT v)[j] = lane (BitCast tF tT v) j := by
    unfold lane; rw [List.getD_eq_getElem?_getD, List.getElem?_eq_getElem h2]; rfl
  rw [l1, l2]
  refine ofBits_inj tT (bits_pos hT) ((bitcast_reg hT _).lane_has hj) ((bitcast_reg hT _).lane_has hj) ?_
  refine BitVec.eq_of_getLsbD_eq fun k hk => ?_
  have e1 := bitcast_bit hM hT (bitcast_reg (tF := tF) hM v).len hj hk
  have e2 := bitcast_bit hF hT hv hj hk
  have hp : tT.bits * j + k < tM.bits * cap tM := by
    have := hb _ hT
    have := hb _ hM
    have : tT.bits * j + tT.bits ≤ tT.bits * cap tT := by
      calc tT.bits * j + tT.bits = tT.bits * (j + 1) := by ring
        _ ≤ _ := Nat.mul_le_mul_left _ hj
    omega
  have e3 := bitcast_bit hF hM hv (j := (tT.bits * j + k) / tM.bits) (k := (tT.bits * j + k) % tM.bits)
    (Nat.div_lt_of_lt_mul hp) (Nat.mod_lt _ (bits_pos hM))
  rw [Nat.div_add_mod] at e3
  exact (e1.trans e3).trans e2.symm

theorem has_byte {t : Ty} (ht : t = u8 ∨ t = i8) {x : Int} (hx : t.Has x) : t.wrap (u8.wrap x) = x := by
  rcases ht with rfl | rfl
  · rw [wrap_has' (by decide) (has_wrap' (by decide) _)]; exact wrap_has' (by decide) hx
  · rw [wrap_wrap_of_le i8 u8 (by decide)]; exact wrap_has' (by decide) hx

theorem abs_byte {t : Ty} (ht : t = u8 ∨ t = i8) {x y : Int} (hx : t.Has x) (hy : t.Has y) :
    u8.wrap (t.wrap |x - y|) = |x - y| ∧ 0 ≤ |x - y| ∧ |x - y| ≤ 255 := by
  have hr : 0 ≤ |x - y| ∧ |x - y| ≤ 255 := by
    refine ⟨abs_nonneg _, abs_le.2 ?_⟩
    rcases ht with rfl | rfl
    · obtain ⟨a, b⟩ : 0 ≤ x ∧ x ≤ 255 := hx
      obtain ⟨c, d⟩ : 0 ≤ y ∧ y ≤ 255 := hy
      omega
    · obtain ⟨a, b⟩ : -128 ≤ x ∧ x ≤ 127 := hx
      obtain ⟨c, d⟩ : -128 ≤ y ∧ y ≤ 127 := hy
      omega
  refine ⟨?_, hr⟩
  rw [wrap_wrap_of_le u8 t (by rcases ht with rfl | rfl <;> decide)]
  exact wrap_has' (by decide) hr

theorem runs_ret {t : Ty} {N : Nat} {x : M (List Int)} {f : List Int → List Int} {F : Nat → Int}
    (h : Runs t N (do let r ← x; return f r) F) : ∃ r, x = .ok r ∧ Is t N (f r) F := by
  obtain ⟨w, e, hw⟩ := h
  obtain ⟨r, e1, e2⟩ := bind_ok e
  cases e2
  exact ⟨r, e1, hw⟩

/-- Absolute differences of bytes, as unsigned bytes. -/
theorem run_absdiff_bytes {t : Ty} (ht : t = u8 ∨ t = i8) {N : Nat} (hN : N ≤ 16) {a b : List Int} {F G : Nat → Int}
    (ha : Is t N a F) (hb : Is t N b G) :
    ∃ d, AbsDiff t N a b = .ok d ∧ Is u8 N (BitCast t u8 d) (fun i => |F i - G i|) := by
  have h : t ∈ laneTys := by rcases ht with rfl | rfl <;> decide
  have hc : cap t = 16 := by rcases ht with rfl | rfl <;> decide
  have hb8 : u8.bits = t.bits := by rcases ht with rfl | rfl <;> rfl
  obtain ⟨d, e, hd⟩ := run_abs_diff h (by omega) ha hb
  refine ⟨d, e, is_congr (is_bc_same hd (by decide) hb8 hN) fun i hi => ?_⟩
  exact (abs_byte ht (ha.has (by omega) hi) (hb.has (by omega) hi)).1

theorem abs_rng {t : Ty} (ht : t = u8 ∨ t = i8) {N : Nat} (hN : N ≤ 16) {a b : List Int} {F G : Nat → Int}
    (ha : Is t N a F) (hb : Is t N b G) {i j : Nat} (hi : i < N) (hj : j < N) : 0 ≤ |F i - G j| ∧ |F i - G j| ≤ 255 := by
  have hc : cap t = 16 := by rcases ht with rfl | rfl <;> decide
  exact (abs_byte ht (ha.has (by omega) hi) (hb.has (by omega) hj)).2

/-- The window `a[s/2 ..]`, each byte twice but the first and last. -/
theorem run_window {t : Ty} (ht : t = u8 ∨ t = i8) {N L s : Nat} (hL : L = 8 ∨ L = 16) (hNL : N ≤ L) (hs : s ≤ L)
    {lo hi : List Int} {A : Nat → Int} (hA : ∀ i, i < 16 → t.Has (A i)) (hlo : Is t L lo (fun i => A (i / 2)))
    (hhi : Is t L hi (fun i => A (L / 2 + i / 2))) (hs2 : s ≤ L) :
    ∃ c w, CombineShiftRightBytes 0 L s (BitCast t u8 hi) (BitCast t u8 lo) = .ok c ∧
      ResizeBitCast t t L N (BitCast u8 t c) = .ok w ∧ Is t N w (fun i => A ((i + s) / 2)) := by
  have h : t ∈ laneTys := by rcases ht with rfl | rfl <;> decide
  have hc : cap t = 16 := by rcases ht with rfl | rfl <;> decide
  have hb8 : u8.bits = t.bits := by rcases ht with rfl | rfl <;> rfl
  have hL16 : L ≤ 16 := by omega
  obtain ⟨c, e1, hc1⟩ := xcsrbytes (B := L) (k := s) hL16 hs (is_bc_same hlo (tT := u8) (by decide) hb8 hL16)
    (is_bc_same hhi (tT := u8) (by decide) hb8 hL16)
  have hw : Is t (min L N) (BitCast u8 t c) (fun i => A ((i + s) / 2)) := by
    refine is_congr ((is_bc_same hc1 h hb8.symm (by omega)).mono (by omega)) fun i hi => ?_
    beta_reduce
    split_ifs with c1
    · exact has_byte ht (hA _ (by omega))
    · rw [show L / 2 + (i + s - L) / 2 = (i + s) / 2 by omega]
      exact has_byte ht (hA _ (by omega))
  obtain ⟨w, e2, hw2⟩ := run_resize_same h (m := 1) (by rcases ht with rfl | rfl <;> rfl) (a := L) (b := N) (by omega) hw
  rw [Nat.one_mul, Nat.one_mul] at e2
  exact ⟨c, w, e1, e2, is_congr (hw2.mono (by omega)) fun i hi => if_pos (by omega)⟩

/-- `SumsOfAdjQuadAbsDiff<kA, kB>`: lane `i` is the sum of the absolute differences of the four bytes of `a` from `4 * kA + i` on
and the four bytes of `b` from `4 * kB` on, where `a` has those bytes (128-bit vectors have one block). -/
theorem C59_sums_of_adj_quad_abs_diff {t : Ty} (ht : t = u8 ∨ t = i8) {N : Nat} (hp : N = 4 ∨ N = 8 ∨ N = 16) (ar : Bool) {kA kB : Nat}
    (hA : kA ≤ min 1 ((N - 1) / 4)) (hB : kB ≤ min 3 ((N - 1) / 4)) {a b : List Int} (ha : Reg t a) (hb : Reg t b) :
    Lanes ⟨16, t.sgn⟩ (N / 2) (SumsOfAdjQuadAbsDiff ar t N kA kB a b)
      (fun i r => 4 * kA + i + 3 < N → r = sad4 (lane a) (lane b) (4 * kA + i) (4 * kB)) := by
  have h : t ∈ laneTys := by rcases ht with rfl | rfl <;> decide
  have hc : cap t = 16 := by rcases ht with rfl | rfl <;> decide
  have hb8 : u8.bits = t.bits := by rcases ht with rfl | rfl <;> rfl
  have hN16 : N ≤ 16 := by omega
  have hwd : wideOf t = ⟨16, t.sgn⟩ := by rcases ht with rfl | rfl <;> rfl
  have hwm : (⟨16, t.sgn⟩ : Ty) ∈ laneTys := by rcases ht with rfl | rfl <;> decide
  have hwc : cap (⟨16, t.sgn⟩ : Ty) = 8 := by rcases ht with rfl | rfl <;> decide
  unfold SumsOfAdjQuadAbsDiff
  dsimp only
  have hk : kA = 0 ∨ kA = 1 := by omega
  obtain ⟨L, hLe⟩ : ∃ L, L = max N (8 <<< kA) := ⟨_, rfl⟩
  rw [← hLe]
  have hL : L = 8 ∨ L = 16 := by rcases hk with rfl | rfl <;> simp at hLe <;> omega
  have hNL : N ≤ L := by omega
  have hL8 : 8 * kA + 8 ≤ L := by rcases hk with rfl | rfl <;> simp at hLe <;> omega
  have hIa : Is t (min N L) a (lane a) := Is.refl ha
  obtain ⟨ai, e1, h1⟩ := run_resize_same h (m := 1) (by rcases ht with rfl | rfl <;> rfl) (a := N) (b := L) (by omega) hIa
  rw [Nat.one_mul, Nat.one_mul] at e1
  obtain ⟨A, hAe⟩ : ∃ A : Nat → Int, A = fun i => if i < min N L then lane a i else 0 := ⟨_, rfl⟩
  rw [← hAe] at h1
  have hAh : ∀ i, i < 16 → t.Has (A i) := fun i hi => h1.has le_rfl (by omega)
  have h1L : Is t L ai A := h1.mono (by omega)
  obtain ⟨lo, e2, h2⟩ := Runs.congr (xilower h (by omega) h1L h1L (by omega)) (G := fun i => A (i / 2)) fun i hi => ite_self _
  obtain ⟨hi, e3, h3⟩ := Runs.congr (xilupper h (by omega) h1L h1L (H := L / 2) (by omega)) (G := fun i => A (L / 2 + i / 2))
    fun i hi => ite_self _
  rw [hc] at e2 e3
  obtain ⟨c1, w1, e4, e5, h5⟩ := run_window ht (N := N) (s := kA * 8 + 1) hL hNL (by omega) hAh h2 h3 (by omega)
  obtain ⟨c2, w2, e6, e7, h7⟩ := run_window ht (N := N) (s := kA * 8 + 5) hL hNL (by omega) hAh h2 h3 (by omega)
  have hIb : Is t N b (lane b) := Is.refl hb
  have hmv : ∀ q, q < N / 2 → ∃ r, Broadcast (N / 2) q (BitCast t ⟨16, t.sgn⟩ b) = .ok r ∧
      Is t N (BitCast ⟨16, t.sgn⟩ t r) (fun i => lane b (2 * q + i % 2)) := fun q hq => by
    rw [← hwd]
    exact runs_ret (run_wide_move h (by omega) hIb (by rcases ht with rfl | rfl <;> decide) (by omega)
      (op := fun w => Broadcast (N / 2) q w) (g := fun _ => q)
      (fun w W hW => xbroadcast (by rw [hwd]; exact hwm) (by rw [hwd]; omega) hW hq) (fun _ _ => hq))
  obtain ⟨b1, e8, h8⟩ := hmv (kB * 2) (by omega)
  obtain ⟨b2, e9, h9⟩ := hmv (kB * 2 + 1) (by omega)
  obtain ⟨d1, e10, h10⟩ := run_absdiff_bytes ht hN16 h5 h8
  obtain ⟨d2, e11, h11⟩ := run_absdiff_bytes ht hN16 h7 h9
  have hE : 2 * (N / 2) = N := by omega
  rw [← hE] at h10 h11
  obtain ⟨s1, e12, h12⟩ := zsums2 (tF := u8) (by decide) (show N / 2 ≤ cap u8.wide by show N / 2 ≤ 8; omega) ar h10
  obtain ⟨s2, e13, h13⟩ := zsums2 (tF := u8) (by decide) (show N / 2 ≤ cap u8.wide by show N / 2 ≤ 8; omega) ar h11
  obtain ⟨s, e14, h14⟩ := xadd (t := u16) (by decide) (show N / 2 ≤ cap u16 by show N / 2 ≤ 8; omega) h12 h13
  rw [e1, okb, e2, okb, e3, okb, e4, okb, e5, okb, e6, okb, e7, okb, e8, okb, e9, okb, e10, okb, e12, okb, e11, okb, e13, okb,
    e14, okb]
  refine Runs.lanes (Runs.ret (is_bc_same h14 hwm (by rfl) (by omega))) (by omega) fun i hi _ hlt => ?_
  beta_reduce
  have r1 := abs_rng ht hN16 h5 h8 (i := 2 * i) (j := 2 * i) (by omega) (by omega)
  have r2 := abs_rng ht hN16 h5 h8 (i := 2 * i + 1) (j := 2 * i + 1) (by omega) (by omega)
  have r3 := abs_rng ht hN16 h7 h9 (i := 2 * i) (j := 2 * i) (by omega) (by omega)
  have r4 := abs_rng ht hN16 h7 h9 (i := 2 * i + 1) (j := 2 * i + 1) (by omega) (by omega)
  have hAl : ∀ j, j < N → A j = lane a j := fun j hj => by rw [hAe]; exact if_pos (by omega)
  beta_reduce at r1 r2 r3 r4
  simp only [show (2 * i + (kA * 8 + 1)) / 2 = 4 * kA + i by omega, show (2 * i + 1 + (kA * 8 + 1)) / 2 = 4 * kA + i + 1 by omega,
    show (2 * i + (kA * 8 + 5)) / 2 = 4 * kA + i + 2 by omega, show (2 * i + 1 + (kA * 8 + 5)) / 2 = 4 * kA + i + 3 by omega,
    show 2 * (kB * 2) + 2 * i % 2 = 4 * kB by omega, show 2 * (kB * 2) + (2 * i + 1) % 2 = 4 * kB + 1 by omega,
    show 2 * (kB * 2 + 1) + 2 * i % 2 = 4 * kB + 2 by omega, show 2 * (kB * 2 + 1) + (2 * i + 1) % 2 = 4 * kB + 3 by omega,
    hAl _ (show 4 * kA + i < N by omega), hAl _ (show 4 * kA + i + 1 < N by omega), hAl _ (show 4 * kA + i + 2 < N by omega),
    hAl _ (show 4 * kA + i + 3 < N by omega)] at r1 r2 r3 r4 ⊢
  unfold sad4
  simp only [Finset.sum_range_succ, Finset.sum_range_zero, Nat.add_zero, zero_add]
  generalize |lane a (4 * kA + i) - lane b (4 * kB)| = x1 at *
  generalize |lane a (4 * kA + i + 1) - lane b (4 * kB + 1)| = x2 at *
  generalize |lane a (4 * kA + i + 2) - lane b (4 * kB + 2)| = x3 at *
  generalize |lane a (4 * kA + i + 3) - lane b (4 * kB + 3)| = x4 at *
  have e16 : ∀ x : Int, 0 ≤ x → x ≤ 1020 → (⟨16, t.sgn⟩ : Ty).wrap (u16.wrap x) = x := fun x x0 x1 => by
    rw [wrap_has' (t := u16) (by decide) (show 0 ≤ x ∧ x ≤ 65535 by omega)]
    refine wrap_has' hwm ?_
    rcases ht with rfl | rfl
    · exact (show 0 ≤ x ∧ x ≤ 65535 by omega)
    · exact (show -32768 ≤ x ∧ x ≤ 32767 by omega)
  rw [show x1 + x2 + (x3 + x4) = x1 + x2 + x3 + x4 by ring]
  exact e16 _ (by omega) (by omega)

/-- The bytes of 32-bit lanes, as lanes of type `t`. -/
theorem is_bytes_t {t d : Ty} (ht : t = u8 ∨ t = i8) (hd : d ∈ laneTys) (h32 : d.bits = 8 * 4) {K : Nat} (hK : K ≤ 4) {v : List Int}
    {E : Nat → Int} (hv : Is d K v E) : Is t (4 * K) (BitCast d t v) (fun j => t.wrap (byteAt (E (j / 4)) (j % 4))) := by
  have h : t ∈ laneTys := by rcases ht with rfl | rfl <;> decide
  have hc : cap t = 16 := by rcases ht with rfl | rfl <;> decide
  have hb8 : u8.bits = t.bits := by rcases ht with rfl | rfl <;> rfl
  have hcd : cap d = 4 := by have := bytes_cap hd h32; omega
  rw [← bitcast_bitcast hd (tM := u8) (by decide) h hv.1.len]
  exact is_bc_same (is_bytes hd h32 (by omega) hv) h hb8.symm (by omega)

/-- `SumsOfShuffledQuadAbsDiff<i3, i2, i1, i0>`: with `s` the bytes of `a` after its 32-bit groups have been shuffled (group `q` of
`s` is group `iq` of `a`), lane `i` is the sum of the absolute differences of the four bytes of `s` from `(i / 4) * 8 + i % 4` on and
the four bytes of `b` from `(i / 2) * 4` on, where the vector has all these groups. -/
theorem C59_sums_of_shuffled_quad_abs_diff {t : Ty} (ht : t = u8 ∨ t = i8) {N : Nat} (hp : N = 4 ∨ N = 8 ∨ N = 16) (ar : Bool)
    {i3 i2 i1 i0 : Nat} (k3 : i3 < 4) (k2 : i2 < 4) (k1 : i1 < 4) (k0 : i0 < 4) {a b : List Int} (ha : Reg t a) (hb : Reg t b) :
    Lanes ⟨16, t.sgn⟩ (N / 2) (SumsOfShuffledQuadAbsDiff ar t N i3 i2 i1 i0 a b)
      (fun i r => i / 4 * 8 + i % 4 + 3 < N → (∀ x, x < 4 → sel4 i3 i2 i1 i0 ((i / 4 * 8 + i % 4 + x) / 4) < N / 4) →
        r = sad4 (fun j => lane a (4 * sel4 i3 i2 i1 i0 (j / 4) + j % 4)) (lane b) (i / 4 * 8 + i % 4) (i / 2 * 4)) := by
  have h : t ∈ laneTys := by rcases ht with rfl | rfl <;> decide
  have hc : cap t = 16 := by rcases ht with rfl | rfl <;> decide
  have hb8 : u8.bits = t.bits := by rcases ht with rfl | rfl <;> rfl
  have hN16 : N ≤ 16 := by omega
  have hdm : (⟨32, t.sgn⟩ : Ty) ∈ laneTys := by rcases ht with rfl | rfl <;> decide
  have hdc : cap (⟨32, t.sgn⟩ : Ty) = 4 := by rcases ht with rfl | rfl <;> decide
  have hwm : (⟨16, t.sgn⟩ : Ty) ∈ laneTys := by rcases ht with rfl | rfl <;> decide
  have hwc : cap (⟨16, t.sgn⟩ : Ty) = 8 := by rcases ht with rfl | rfl <;> decide
  unfold SumsOfShuffledQuadAbsDiff
  dsimp only
  obtain ⟨shuf, e1, hr1, hl1⟩ := C59_per4_lane_block_shuffle hdm (N := N / 4) (by omega)
    (by rcases hp with rfl | rfl | rfl <;> decide) k3 k2 k1 k0 (bitcast_reg (tF := t) hdm a)
  have hE : 4 * (N / 4) = N := by omega
  have h1 : Is ⟨32, t.sgn⟩ (N / 4) shuf (lane shuf) := Is.refl hr1
  have h2 := is_bytes hdm (m := 4) rfl (by omega) h1
  rw [hE] at h2
  obtain ⟨S, hS⟩ : ∃ S : Nat → Int, S = fun j => byteAt (lane shuf (j / 4)) (j % 4) := ⟨_, rfl⟩
  rw [← hS] at h2
  have hSh : ∀ j, u8.Has (S j) := fun j => by rw [hS]; exact byteAt_range _ _
  obtain ⟨l2, e2, g2⟩ := xshlbytes (k := 2) hN16 (by omega) h2
  obtain ⟨l1, e3, g3⟩ := xshlbytes (k := 1) hN16 (by omega) h2
  obtain ⟨r1, e4, g4⟩ := xshrbytes (k := 1) hN16 (by omega) h2
  rw [← hE] at g2 g3 g4
  have v2 : Is ⟨32, t.sgn⟩ (N / 4) (BitCast u8 ⟨32, t.sgn⟩ l2) (lane (BitCast u8 ⟨32, t.sgn⟩ l2)) := Is.refl (bitcast_reg hdm _)
  have v1 : Is ⟨32, t.sgn⟩ (N / 4) (BitCast u8 ⟨32, t.sgn⟩ l1) (lane (BitCast u8 ⟨32, t.sgn⟩ l1)) := Is.refl (bitcast_reg hdm _)
  have w1 : Is ⟨32, t.sgn⟩ (N / 4) (BitCast u8 ⟨32, t.sgn⟩ r1) (lane (BitCast u8 ⟨32, t.sgn⟩ r1)) := Is.refl (bitcast_reg hdm _)
  obtain ⟨e, e5, g5⟩ := xoddeven hdm (by omega) v2 h1
  obtain ⟨o, e6, g6⟩ := xoddeven hdm (by omega) v1 w1
  have hev : Is t N (BitCast ⟨32, t.sgn⟩ t e) (fun j => t.wrap (if j / 4 % 2 = 1 then S (j - 2) else S j)) := by
    have := is_bytes_t ht hdm rfl (by omega) g5
    rw [hE] at this
    refine is_congr this fun j hj => ?_
    beta_reduce
    refine congrArg t.wrap ?_
    by_cases c : j / 4 % 2 = 1
    · rw [if_pos c, if_pos c, bytes_lane hdm (m := 4) rfl (by omega) g2 (by omega) (by omega), show 4 * (j / 4) + j % 4 = j by omega,
        if_neg (by omega)]
    · rw [if_neg c, if_neg c, hS]
  have hod : Is t N (BitCast ⟨32, t.sgn⟩ t o)
      (fun j => t.wrap (if j / 4 % 2 = 1 then S (j - 1) else if j + 1 < N then S (j + 1) else 0)) := by
    have := is_bytes_t ht hdm rfl (by omega) g6
    rw [hE] at this
    refine is_congr this fun j hj => ?_
    beta_reduce
    refine congrArg t.wrap ?_
    by_cases c : j / 4 % 2 = 1
    · rw [if_pos c, if_pos c, bytes_lane hdm (m := 4) rfl (by omega) g3 (by omega) (by omega), show 4 * (j / 4) + j % 4 = j by omega,
        if_neg (by omega)]
    · rw [if_neg c, if_neg c, bytes_lane hdm (m := 4) rfl (by omega) g4 (by omega) (by omega), show 4 * (j / 4) + j % 4 = j by omega, hE]
  have hIb : Is t N b (lane b) := Is.refl hb
  obtain ⟨de, e7, g7⟩ := run_absdiff_bytes ht hN16 hev hIb
  obtain ⟨dO, e8, g8⟩ := run_absdiff_bytes ht hN16 hod hIb
  obtain ⟨FE, hFE⟩ : ∃ FE : Nat → Int, FE = fun j => |t.wrap (if j / 4 % 2 = 1 then S (j - 2) else S j) - lane b j| := ⟨_, rfl⟩
  obtain ⟨FO, hFO⟩ : ∃ FO : Nat → Int, FO = fun j =>
    |t.wrap (if j / 4 % 2 = 1 then S (j - 1) else if j + 1 < N then S (j + 1) else 0) - lane b j| := ⟨_, rfl⟩
  rw [← hFE] at g7
  rw [← hFO] at g8
  have key : ∀ (d : List Int) (F : Nat → Int), Is u8 N d F →
      Runs u32 (N / 4) (SumsOf4 ar u8 (N / 4) d) (fun q => F (4 * q) + F (4 * q + 1) + F (4 * q + 2) + F (4 * q + 3)) := fun d F hd =>
    (C55_sums_of_4 (tF := u8) (Or.inl rfl) (show N / 4 ≤ 4 by omega) ar hd.1).runs (show N / 4 ≤ 4 by omega) fun q x hq _ ex => by
      rw [ex, hd.2 _ (by omega), hd.2 _ (by omega), hd.2 _ (by omega), hd.2 _ (by omega)]
  obtain ⟨es, e9, g9⟩ := key _ _ g7
  obtain ⟨os, e10, g10⟩ := key _ _ g8
  obtain ⟨sh, e11, g11⟩ := xshl (t := u32) (k := 16) (by decide) (show N / 4 ≤ cap u32 by show N / 4 ≤ 4; omega) (by decide) (by decide) g10
  have n1 := is_bc_narrow g11 (by decide) hwm rfl (show N / 4 ≤ 4 by omega)
  have n2 := is_bc_narrow g9 (by decide) hwm rfl (show N / 4 ≤ 4 by omega)
  rw [show 2 * (N / 4) = N / 2 by omega] at n1 n2
  rw [e1, okb, e2, okb, e5, okb, e3, okb, e4, okb, e6, okb, e7, okb, e9, okb, e8, okb, e10, okb, e11, okb]
  refine Runs.lanes (xoddeven hwm (by omega) n1 n2) (by omega) fun i hi _ hlt hsel => ?_
  have hSa : ∀ x, x < 4 → t.wrap (S (i / 4 * 8 + i % 4 + x)) =
      lane a (4 * sel4 i3 i2 i1 i0 ((i / 4 * 8 + i % 4 + x) / 4) + (i / 4 * 8 + i % 4 + x) % 4) := fun x hx => by
    have hse := hsel x hx
    generalize hj : i / 4 * 8 + i % 4 + x = j at hse ⊢
    have hjN : j < N := by omega
    have := hl1 (j / 4) (by omega)
    beta_reduce at this
    rw [show 4 * (j / 4 / 4) = 0 by omega, zero_add, show j / 4 % 4 = j / 4 by omega] at this
    rw [hS]
    beta_reduce
    rw [this hse, ← bitcast_bitcast h (tM := u8) (by decide) hdm ha.len,
      bytes_lane hdm (m := 4) rfl (N := 4) (by omega) (is_bc_same (Is.refl ha : Is t 16 a _) (tT := u8) (by decide) hb8 (by decide))
        (by omega) (by omega)]
    exact has_byte ht (ha.lane_has (by omega))
  have rng : ∀ x, x < 4 → 0 ≤ |t.wrap (S (i / 4 * 8 + i % 4 + x)) - lane b (4 * (i / 2) + x)| ∧
      |t.wrap (S (i / 4 * 8 + i % 4 + x)) - lane b (4 * (i / 2) + x)| ≤ 255 := fun x hx =>
    (abs_byte ht (has_wrap' h _) (hb.lane_has (by omega))).2
  have q0 := rng 0 (by omega)
  have q1 := rng 1 (by omega)
  have q2 := rng 2 (by omega)
  have q3 := rng 3 (by omega)
  have e16 : ∀ x : Int, 0 ≤ x → x ≤ 1020 → (⟨16, t.sgn⟩ : Ty).wrap (u32.wrap (x * 2 ^ (16 : Int).toNat) / 2 ^ (16 * 1)) = x ∧
      (⟨16, t.sgn⟩ : Ty).wrap (x / 2 ^ (16 * 0)) = x := fun x x0 x1 => by
    have : (⟨16, t.sgn⟩ : Ty).wrap x = x := by
      refine wrap_has' hwm ?_
      rcases ht with rfl | rfl
      · exact (show 0 ≤ x ∧ x ≤ 65535 by omega)
      · exact (show -32768 ≤ x ∧ x ≤ 32767 by omega)
    refine ⟨?_, by simpa using this⟩
    rw [show (2 : Int) ^ (16 : Int).toNat = 65536 from rfl, show (2 : Int) ^ (16 * 1) = 65536 by norm_num,
      wrap_has' (t := u32) (by decide) (show 0 ≤ x * 65536 ∧ x * 65536 ≤ 4294967295 by omega),
      Int.mul_ediv_cancel _ (by decide)]
    exact this
  have hsum : sad4 (fun j => lane a (4 * sel4 i3 i2 i1 i0 (j / 4) + j % 4)) (lane b) (i / 4 * 8 + i % 4) (i / 2 * 4) =
      |t.wrap (S (i / 4 * 8 + i % 4 + 0)) - lane b (4 * (i / 2) + 0)| + |t.wrap (S (i / 4 * 8 + i % 4 + 1)) - lane b (4 * (i / 2) + 1)| +
      |t.wrap (S (i / 4 * 8 + i % 4 + 2)) - lane b (4 * (i / 2) + 2)| + |t.wrap (S (i / 4 * 8 + i % 4 + 3)) - lane b (4 * (i / 2) + 3)| := by
    unfold sad4
    simp only [Finset.sum_range_succ, Finset.sum_range_zero, zero_add]
    rw [hSa 0 (by omega), hSa 1 (by omega), hSa 2 (by omega), hSa 3 (by omega), show i / 2 * 4 = 4 * (i / 2) by omega]
  rw [hsum]
  by_cases c : i % 2 = 1
  · have hx : ∀ x, x < 4 → FO (4 * (i / 2) + x) = |t.wrap (S (i / 4 * 8 + i % 4 + x)) - lane b (4 * (i / 2) + x)| := fun x hx => by
      rw [hFO]
      beta_reduce
      by_cases c2 : (4 * (i / 2) + x) / 4 % 2 = 1
      · rw [if_pos c2, show 4 * (i / 2) + x - 1 = i / 4 * 8 + i % 4 + x by omega]
      · rw [if_neg c2, if_pos (by omega), show 4 * (i / 2) + x + 1 = i / 4 * 8 + i % 4 + x by omega]
    rw [if_pos c, c, ← hx 0 (by omega), ← hx 1 (by omega), ← hx 2 (by omega), ← hx 3 (by omega), Nat.add_zero]
    rw [← hx 0 (by omega)] at q0
    rw [← hx 1 (by omega)] at q1
    rw [← hx 2 (by omega)] at q2
    rw [← hx 3 (by omega)] at q3
    exact (e16 _ (by rw [Nat.add_zero] at q0; omega) (by rw [Nat.add_zero] at q0; omega)).1
  · have hx : ∀ x, x < 4 → FE (4 * (i / 2) + x) = |t.wrap (S (i / 4 * 8 + i % 4 + x)) - lane b (4 * (i / 2) + x)| := fun x hx => by
      rw [hFE]
      beta_reduce
      by_cases c2 : (4 * (i / 2) + x) / 4 % 2 = 1
      · rw [if_pos c2, show 4 * (i / 2) + x - 2 = i / 4 * 8 + i % 4 + x by omega]
      · rw [if_neg c2, show 4 * (i / 2) + x = i / 4 * 8 + i % 4 + x by omega]
    rw [if_neg c, show i % 2 = 0 by omega, ← hx 0 (by omega), ← hx 1 (by omega), ← hx 2 (by omega), ← hx 3 (by omega), Nat.add_zero]
    rw [← hx 0 (by omega)] at q0
    rw [← hx 1 (by omega)] at q1
    rw [← hx 2 (by omega)] at q2
    rw [← hx 3 (by omega)] at q3
    exact (e16 _ (by rw [Nat.add_zero] at q0; omega) (by rw [Nat.add_zero] at q0; omega)).2

end Emu
end Hwy
