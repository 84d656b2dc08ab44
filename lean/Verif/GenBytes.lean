import Verif.GenRot
import Verif.GenArithSpec3
import Verif.GenMemSpec2
import Verif.GenAESSpec

/-!
# Rules for bytes of lanes and for byte and lane moves in straight-line programs
-/

namespace Hwy
namespace Emu
open CInt

/-- Byte `k` of the two's complement representation of `x`. -/
def byteAt (x : Int) (k : Nat) : Int := x / 256 ^ k % 256

theorem concatStride_all {P : Int → Prop} {odd : Nat} {z : Int} {c H : Nat} {hi lo r : List Int}
    (e : concatStride odd z c H hi lo = .ok r) (hz : P z) (hh : ∀ y ∈ hi, P y) (hl : ∀ y ∈ lo, P y) : ∀ y ∈ r, P y := by
  obtain ⟨s, e1, e2⟩ := bind_ok e
  exact forN_all (fun _ _ _ e h => move_all e hh h) e2 (forN_all (fun _ _ _ e h => move_all e hl h) e1 (fresh_all hz))

theorem byteAt_range (x : Int) (k : Nat) : 0 ≤ byteAt x k ∧ byteAt x k ≤ 255 := by
  unfold byteAt
  generalize x / 256 ^ k = y
  omega

theorem pow_256 (m : Nat) : (2 : Int) ^ (8 * m) = 256 ^ m := by
  rw [pow_mul]; norm_num

theorem byteAt_congr {t : Ty} {m : Nat} (hm : t.bits = 8 * m) {x y : Int} (e : x ≡ y [ZMOD 2 ^ t.bits]) {k : Nat} (hk : k < m) :
    byteAt x k = byteAt y k := by
  rw [hm, pow_256] at e
  exact byte_congr e hk

/-- The bytes of a register. -/
theorem is_bytes {t : Ty} (h : t ∈ laneTys) {m : Nat} (hm : t.bits = 8 * m) {N : Nat} (hN : N ≤ cap t) {v : List Int} {F : Nat → Int}
    (hv : Is t N v F) : Is u8 (m * N) (BitCast t u8 v) (fun j => byteAt (F (j / m)) (j % m)) := by
  have hb : ∀ t ∈ laneTys, t.bits * cap t = 128 := by decide
  have h128 := hb t h
  have hp : 0 < m := by have := bits_pos h; omega
  have h16 : m * cap t = 16 := by rw [hm] at h128; have e : 8 * m * cap t = 8 * (m * cap t) := by ring
                                  omega
  have hmN : m * N ≤ 16 := by rw [← h16]; exact Nat.mul_le_mul_left _ hN
  refine ⟨bitcast_reg (by decide) v, fun j hj => ?_⟩
  have hj16 : j < 16 := by omega
  rw [bitcast_lane v (show j < cap u8 from hj16)]
  have hq : j / m < N := Nat.div_lt_of_lt_mul hj
  have e : (2 : Int) ^ (u8.bits * j) = 2 ^ (t.bits * (j / m)) * 256 ^ (j % m) := by
    rw [show u8.bits = 8 from rfl, ← pow_256, ← pow_add, hm]
    congr 1
    have := Nat.div_add_mod j m
    generalize j % m = r at *
    generalize j / m = q at *
    subst this
    ring
  rw [e, ← Int.ediv_ediv_of_nonneg (by positivity), total_shift, drop_lane (by rw [hv.1.len]; omega), total_cons, hv.2 _ hq]
  have e2 : F (j / m) % 2 ^ t.bits + 2 ^ t.bits * total t (v.drop (j / m + 1)) ≡ F (j / m) [ZMOD 2 ^ t.bits] := by
    unfold Int.ModEq
    rw [Int.add_mul_emod_self_left, Int.emod_emod_of_dvd _ dvd_rfl]
  beta_reduce
  rw [← byteAt_congr hm e2 (Nat.mod_lt _ hp)]
  unfold byteAt
  generalize (F (j / m) % 2 ^ t.bits + 2 ^ t.bits * total t (v.drop (j / m + 1))) / 256 ^ (j % m) = y
  exact (mod_unique (t := u8) (by decide) ⟨by show (0:Int) ≤ _; omega, by show _ ≤ (255 : Int); omega⟩
    (by show y % 256 ≡ y [ZMOD 256]; exact Int.mod_modEq y 256)).symm

/-- The lanes made of given bytes. -/
theorem bytes_lane {t : Ty} (h : t ∈ laneTys) {m : Nat} (hm : t.bits = 8 * m) {N : Nat} (hN : N ≤ cap t) {w : List Int} {G : Nat → Int}
    (hw : Is u8 (m * N) w G) {i k : Nat} (hi : i < N) (hk : k < m) : byteAt (lane (BitCast u8 t w) i) k = G (m * i + k) := by
  have hb : ∀ t ∈ laneTys, t.bits * cap t = 128 := by decide
  have h128 := hb t h
  have h16 : m * cap t = 16 := by rw [hm] at h128; have e : 8 * m * cap t = 8 * (m * cap t) := by ring
                                  omega
  have hmN : m * N ≤ 16 := by rw [← h16]; exact Nat.mul_le_mul_left _ hN
  have hlt : m * i + k < m * N := by
    calc m * i + k < m * i + m := by omega
      _ = m * (i + 1) := by ring
      _ ≤ m * N := Nat.mul_le_mul_left _ hi
  rw [bitcast_lane w (by omega), byteAt_congr hm (modEq_wrap t _) hk]
  unfold byteAt
  have e : (2 : Int) ^ (t.bits * i) * 256 ^ k = 2 ^ (u8.bits * (m * i + k)) := by
    rw [show u8.bits = 8 from rfl, ← pow_256, ← pow_add, hm]
    congr 1
    ring
  rw [Int.ediv_ediv_of_nonneg (by positivity), e, total_shift, drop_lane (by rw [hw.1.len]; show _ < 16; omega), total_cons,
    hw.2 _ hlt, show (2 : Int) ^ u8.bits = 256 from rfl, Int.add_mul_emod_self_left]
  have : (0 : Int) ≤ G (m * i + k) ∧ G (m * i + k) ≤ 255 := by
    rw [← hw.2 _ hlt]; exact hw.1.lane_has (by show _ < 16; omega)
  omega

/-- A lane is determined by its bytes. -/
theorem byte_ext : ∀ {m : Nat} {x y : Int}, (∀ k, k < m → byteAt x k = byteAt y k) → x ≡ y [ZMOD 256 ^ m]
  | 0, x, y, _ => by simp [Int.modEq_one]
  | m + 1, x, y, h => by
    have h0 : x % 256 = y % 256 := by simpa [byteAt] using h 0 (by omega)
    have h1 : x / 256 ≡ y / 256 [ZMOD 256 ^ m] := byte_ext fun k hk => by
      have := h (k + 1) (by omega)
      unfold byteAt at this ⊢
      rw [pow_succ', ← Int.ediv_ediv_of_nonneg (by norm_num), ← Int.ediv_ediv_of_nonneg (by norm_num)] at this
      exact this
    obtain ⟨d, hd⟩ := Int.modEq_iff_dvd.1 h1
    refine Int.modEq_iff_dvd.2 ⟨d, ?_⟩
    have a := Int.emod_add_mul_ediv x 256
    have b := Int.emod_add_mul_ediv y 256
    rw [pow_succ']
    rw [mul_assoc, ← hd]
    linarith

/-! ### Moves -/

section moves
variable {t : Ty} (h : t ∈ laneTys) {N : Nat} (hN : N ≤ cap t) {a b : List Int} {F G : Nat → Int} (ha : Is t N a F)
include h hN ha

omit hN in
theorem cap_even : cap t % 2 = 0 := by
  have hc : ∀ t ∈ laneTys, cap t % 2 = 0 := by decide
  exact hc t h

theorem xdupeven : Runs t N (DupEven N a) (fun i => F (2 * (i / 2))) := by
  have := cap_even h ha
  refine (C47_dup_even (α := Int) (c := cap t) (by omega) ha.1.len).runs
    (fun r e => forN_all (P := t.Has) (fun j s s' e hs => move_all e hs hs) e ha.1.has) (fun i hi => ?_)
  exact ha.some hN (by omega)

theorem xdupodd (h2 : N % 2 = 0) : Runs t N (DupOdd N a) (fun i => F (2 * (i / 2) + 1)) := by
  have := cap_even h ha
  refine (C47_dup_odd (α := Int) (c := cap t) (by omega) ha.1.len).runs
    (fun r e => forN_all (P := t.Has) (fun j s s' e hs => move_all e hs hs) e ha.1.has) (fun i hi => ?_)
  exact ha.some hN (by omega)

theorem xbroadcast {k : Nat} (hk : k < N) : Runs t N (Broadcast N k a) (fun _ => F k) := by
  refine (C47_broadcast (α := Int) (c := cap t) hN ha.1.len hk).runs
    (fun r e => forN_all (P := t.Has) (fun j s s' e hs => move_all e hs hs) e ha.1.has) (fun i hi => ?_)
  exact ha.some hN hk

variable (hb : Is t N b G)
include hb

theorem xilower (h2 : N % 2 = 0) : Runs t N (InterleaveLower 0 (cap t) N a b) (fun i => if i % 2 = 0 then F (i / 2) else G (i / 2)) := by
  refine (C47_interleave_lower (α := Int) 0 hN h2 ha.1.len hb.1.len).runs
    (fun r e => forN_all (P := t.Has) (fun j s s' e hs => move_all_bind e ha.1.has hs fun _ e hs => move_all e hb.1.has hs) e
      (fresh_all (has_zero h))) (fun i hi => ?_)
  split_ifs
  · exact ha.some hN (by omega)
  · exact hb.some hN (by omega)

theorem xilupper {H : Nat} (hH : 2 * H = N) :
    Runs t N (InterleaveUpper 0 (cap t) H a b) (fun i => if i % 2 = 0 then F (H + i / 2) else G (H + i / 2)) := by
  subst hH
  refine (C47_interleave_upper (α := Int) 0 hN ha.1.len hb.1.len).runs
    (fun r e => forN_all (P := t.Has) (fun j s s' e hs => move_all_bind e ha.1.has hs fun _ e hs => move_all e hb.1.has hs) e
      (fresh_all (has_zero h))) (fun i hi => ?_)
  split_ifs
  · exact ha.some hN (by omega)
  · exact hb.some hN (by omega)

end moves

theorem xconcateven {t : Ty} (h : t ∈ laneTys) {H : Nat} (hH : 2 * H ≤ cap t) {hi lo : List Int} {F G : Nat → Int}
    (hh : Is t (2 * H) hi F) (hl : Is t (2 * H) lo G) :
    Runs t (2 * H) (ConcatEven 0 (cap t) H hi lo) (fun i => if i < H then G (2 * i) else F (2 * (i - H))) := by
  refine (C47_concat_even_odd (α := Int) 0 hH hh.1.len hl.1.len).1.runs (fun r e => ?_) (fun i hi' => ?_)
  · exact concatStride_all e (has_zero h) hh.1.has hl.1.has
  · split_ifs
    · exact hl.some hH (by omega)
    · exact hh.some hH (by omega)

theorem xconcatodd {t : Ty} (h : t ∈ laneTys) {H : Nat} (hH : 2 * H ≤ cap t) {hi lo : List Int} {F G : Nat → Int}
    (hh : Is t (2 * H) hi F) (hl : Is t (2 * H) lo G) :
    Runs t (2 * H) (ConcatOdd 0 (cap t) H hi lo) (fun i => if i < H then G (2 * i + 1) else F (2 * (i - H) + 1)) := by
  refine (C47_concat_even_odd (α := Int) 0 hH hh.1.len hl.1.len).2.runs (fun r e => ?_) (fun i hi' => ?_)
  · exact concatStride_all e (has_zero h) hh.1.has hl.1.has
  · split_ifs
    · exact hl.some hH (by omega)
    · exact hh.some hH (by omega)

/-- `TableLookupBytes` with indices below the size. -/
theorem xtable {n : Nat} (hn : n ≤ 16) {v idx : List Int} {F I : Nat → Int} (hv : Is u8 n v F) (hi : Is u8 n idx I)
    (hI : ∀ i, i < n → I i < n) : Runs u8 n (TableBytes n v idx) (fun i => F (I i).toNat) := by
  refine Gives.runs (t := u8) (C47_table_lookup_bytes (α := Int) 0 hn hn hv.1.len (idx := idx.map Int.toNat)
    (by rw [List.length_map]; exact hi.1.len)) (fun r e => ?_) (fun i hi' => ?_)
  · refine forN_all (P := u8.Has) (fun j s s' e hs => ?_) e (fresh_all (by decide))
    obtain ⟨x, _, e2⟩ := bind_ok e
    dsimp only at e2
    split at e2
    · obtain ⟨y, e3, e4⟩ := bind_ok e2
      exact writeAt_all e4 hs (readAt_all e3 hv.1.has)
    · obtain ⟨y, e3, e4⟩ := bind_ok e2
      cases e3
      exact writeAt_all e4 hs (by decide)
  · have h1 := hI i hi'
    have h2 : (0 : Int) ≤ I i := (hi.has (show n ≤ cap u8 from hn) hi').1
    rw [List.getElem?_map, hi.some (show n ≤ cap u8 from hn) hi']
    simp only [Option.map_some, Option.bind_some]
    rw [if_pos (by omega)]
    exact hv.some (show n ≤ cap u8 from hn) (by omega)

end Emu
end Hwy
