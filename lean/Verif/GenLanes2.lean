import Verif.GenLanes
import Verif.EmuMoveSpec
import Verif.EmuConvSpec4

/-!
# Rules for conversions and data movement in straight-line programs
-/

namespace Hwy
namespace Emu
open CInt Flt

/-! ### Elements of moved arrays -/

section closure
variable {α : Type} {P : α → Prop}

theorem writeAt_all {r r' : List α} {i : Nat} {x : α} (e : writeAt r i x = .ok r') (h : ∀ y ∈ r, P y) (hx : P x) :
    ∀ y ∈ r', P y := by
  by_cases hi : i < r.length
  · rw [writeAt_of_lt x hi] at e
    cases e
    intro y hy
    rcases List.mem_or_eq_of_mem_set hy with h1 | h1
    · exact h y h1
    · rw [h1]; exact hx
  · unfold writeAt at e
    rw [if_neg hi] at e
    cases e

theorem readAt_all {v : List α} {i : Nat} {x : α} (e : readAt v i = .ok x) (h : ∀ y ∈ v, P y) : P x := by
  by_cases hi : i < v.length
  · rw [readAt_of_lt hi] at e
    cases e
    exact h _ (List.getElem_mem hi)
  · unfold readAt at e
    rw [List.getElem?_eq_none (by omega)] at e
    cases e

theorem forN_all {n : Nat} {body : Nat → List α → M (List α)} {r0 r : List α}
    (hb : ∀ j s s', body j s = .ok s' → (∀ y ∈ s, P y) → ∀ y ∈ s', P y) (e : forN n body r0 = .ok r)
    (h0 : ∀ y ∈ r0, P y) : ∀ y ∈ r, P y := by
  induction n generalizing r with
  | zero => rw [forN_zero] at e; cases e; exact h0
  | succ n ih =>
    rw [forN_succ] at e
    cases hn : forN n body r0 with
    | error x => rw [hn] at e; cases e
    | ok s => rw [hn] at e; exact hb n s r e (ih hn)

theorem bind_ok {β γ : Type} {x : M β} {f : β → M γ} {r : γ} (e : (x >>= f) = .ok r) :
    ∃ y, x = .ok y ∧ f y = .ok r := by
  cases x with
  | error y => cases e
  | ok y => exact ⟨y, rfl, e⟩

/-- `writeAt s i (← readAt v j)` keeps a property of all elements. -/
theorem move_all {s s' v : List α} {i j : Nat} (e : (do writeAt s i (← readAt v j)) = .ok s') (hv : ∀ y ∈ v, P y)
    (hs : ∀ y ∈ s, P y) : ∀ y ∈ s', P y := by
  obtain ⟨x, e1, e2⟩ := bind_ok e
  exact writeAt_all e2 hs (readAt_all e1 hv)

theorem move_all_bind {s v r : List α} {i j : Nat} {f : List α → M (List α)}
    (e : (do let s ← writeAt s i (← readAt v j); f s) = .ok r) (hv : ∀ y ∈ v, P y) (hs : ∀ y ∈ s, P y)
    (hf : ∀ s', f s' = .ok r → (∀ y ∈ s', P y) → ∀ y ∈ r, P y) : ∀ y ∈ r, P y := by
  obtain ⟨x, e1, e2⟩ := bind_ok e
  obtain ⟨s', e3, e4⟩ := bind_ok e2
  exact hf s' e4 (writeAt_all e3 hs (readAt_all e1 hv))

theorem copyLanes_all {src dst r : List α} {so d0 n : Nat} (e : copyLanes src so dst d0 n = .ok r)
    (hs : ∀ y ∈ src, P y) (hd : ∀ y ∈ dst, P y) : ∀ y ∈ r, P y :=
  forN_all (fun _ _ _ e h => move_all e hs h) e hd

theorem fresh_all {z : α} {c : Nat} (hz : P z) : ∀ y ∈ fresh z c, P y := by
  intro y hy
  rw [List.eq_of_mem_replicate hy]
  exact hz

theorem reverse2_all {z : α} {c N : Nat} {v r : List α} (e : Reverse2 z c N v = .ok r) (hz : P z)
    (hv : ∀ y ∈ v, P y) : ∀ y ∈ r, P y :=
  forN_all (fun _ _ _ e h => move_all_bind e hv h fun _ e h => move_all e hv h) e (fresh_all hz)

theorem reverse4_all {z : α} {c N : Nat} {v r : List α} (e : Reverse4 z c N v = .ok r) (hz : P z)
    (hv : ∀ y ∈ v, P y) : ∀ y ∈ r, P y :=
  forN_all (fun _ _ _ e h => move_all_bind e hv h fun _ e h => move_all_bind e hv h fun _ e h =>
    move_all_bind e hv h fun _ e h => move_all e hv h) e (fresh_all hz)

theorem reverse8_all {z : α} {c N : Nat} {v r : List α} (e : Reverse8 z c N v = .ok r) (hz : P z)
    (hv : ∀ y ∈ v, P y) : ∀ y ∈ r, P y :=
  forN_all (fun _ _ _ e h => move_all_bind e hv h fun _ e h => move_all_bind e hv h fun _ e h =>
    move_all_bind e hv h fun _ e h => move_all_bind e hv h fun _ e h => move_all_bind e hv h fun _ e h =>
    move_all_bind e hv h fun _ e h => move_all_bind e hv h fun _ e h => move_all e hv h) e (fresh_all hz)

end closure

theorem Gives.runs {t : Ty} {x : M (List Int)} {N : Nat} {g : Nat → Option Int} {F : Nat → Int}
    (h : Gives x (cap t) N g) (hcl : ∀ r, x = .ok r → ∀ y ∈ r, t.Has y) (hg : ∀ i, i < N → g i = some (F i)) :
    Runs t N x F := by
  obtain ⟨r, e, hl, hr⟩ := h
  exact ⟨r, e, ⟨hl, hcl r e⟩, fun i hi => lane_of_some (by rw [hr i hi, hg i hi])⟩

theorem Is.some {t : Ty} {N : Nat} {v : List Int} {F : Nat → Int} (h : Is t N v F) (hN : N ≤ cap t) {i : Nat}
    (hi : i < N) : v[i]? = some (F i) := by
  rw [lane_some (by rw [h.1.len]; omega), h.2 i hi]

/-! ### Moves -/

section moves
variable {t : Ty} {N : Nat} {v : List Int} {F : Nat → Int} (hv : Is t N v F) (h : t ∈ laneTys) (hN : N ≤ cap t)
include hv h hN

theorem xlower {H : Nat} (hH : H ≤ N) : Runs t H (LowerHalf 0 (cap t) H v) F :=
  (C47_lower_half (0 : Int) (by omega) hv.1.len).runs
    (fun _ e => copyLanes_all e hv.1.has (fresh_all (has_zero h))) (fun i hi => by exact hv.some hN (by omega))

theorem xupper {H : Nat} (hH : 2 * H ≤ N) : Runs t H (UpperHalf 0 (cap t) H v) (fun i => F (H + i)) :=
  (C47_upper_half (0 : Int) (by omega) hv.1.len).runs
    (fun _ e => copyLanes_all e hv.1.has (fresh_all (has_zero h))) (fun i hi => by exact hv.some hN (by omega))

theorem xor_lt_group {w i : Nat} (k : Nat) (hw : w = 2 ^ k) (hd : w ∣ N) (hi : i < N) : i ^^^ (w - 1) < N := by
  obtain ⟨m, rfl⟩ := hd
  subst hw
  have h1 : (i ^^^ (2 ^ k - 1)) / 2 ^ k = i / 2 ^ k := by
    rw [← Nat.shiftRight_eq_div_pow, Nat.shiftRight_xor_distrib, Nat.shiftRight_eq_div_pow, Nat.shiftRight_eq_div_pow,
      Nat.div_eq_of_lt (a := 2 ^ k - 1) (by have := Nat.two_pow_pos k; omega)]
    simp
  have h2 : i / 2 ^ k < m := Nat.div_lt_of_lt_mul hi
  have h3 := Nat.lt_mul_div_succ (i ^^^ (2 ^ k - 1)) (Nat.two_pow_pos k)
  rw [h1] at h3
  exact Nat.lt_of_lt_of_le h3 (Nat.mul_le_mul_left _ h2)

theorem xreverse2 (hd : 2 ∣ N) : Runs t N (Reverse2 0 (cap t) N v) (fun i => F (i ^^^ 1)) :=
  (C47_reverse2 (0 : Int) (by omega) hv.1.len).runs
    (fun _ e => reverse2_all e (has_zero h) hv.1.has)
    (fun i hi => by exact hv.some hN (xor_lt_group hv h hN 1 rfl hd hi))

theorem xreverse4 (hd : 4 ∣ N) : Runs t N (Reverse4 0 (cap t) N v) (fun i => F (i ^^^ 3)) :=
  (C47_reverse4 (0 : Int) (by omega) hv.1.len).runs
    (fun _ e => reverse4_all e (has_zero h) hv.1.has)
    (fun i hi => by exact hv.some hN (xor_lt_group hv h hN 2 rfl hd hi))

theorem xreverse8 (hd : 8 ∣ N) : Runs t N (Reverse8 0 (cap t) N v) (fun i => F (i ^^^ 7)) :=
  (C47_reverse8 (0 : Int) (by omega) hv.1.len).runs
    (fun _ e => reverse8_all e (has_zero h) hv.1.has)
    (fun i hi => by exact hv.some hN (xor_lt_group hv h hN 3 rfl hd hi))

end moves

/-! ### `BitCast` -/

theorem bitsOf_wrap (t : Ty) (h : 0 < t.bits) (x : Int) : bitsOf t (t.wrap x) = bitsOf t x := ofInt_wrap t x

theorem getLsbD_ofInt {w : Nat} (x : Int) {k : Nat} (hk : k < w) :
    (BitVec.ofInt w x).getLsbD k = decide (x / 2 ^ k % 2 = 1) := by
  rw [← BitVec.testBit_toNat, BitVec.toNat_ofInt, Nat.testBit_eq_decide_div_mod_eq]
  have h1 : ((x % 2 ^ w).toNat : Int) = x % 2 ^ w := Int.toNat_of_nonneg (Int.emod_nonneg _ (by positivity))
  congr 1
  push_cast
  have h2 : (((x % (2:Int) ^ w).toNat / 2 ^ k % 2 : Nat) : Int) = x / 2 ^ k % 2 := by
    push_cast
    rw [h1]
    have e : (2 : Int) ^ w = 2 ^ k * (2 * 2 ^ (w - k - 1)) := by
      rw [← pow_succ', ← pow_add]; congr 1; omega
    have hq : (0 : Int) < 2 ^ k := by positivity
    generalize (2 : Int) ^ (w - k - 1) = q at e
    generalize (2 : Int) ^ k = d at e hq ⊢
    rw [e]
    have h3 := Int.emod_add_mul_ediv x (d * (2 * q))
    generalize x % (d * (2 * q)) = y at h3 ⊢
    generalize x / (d * (2 * q)) = z at h3
    rw [← h3, show d * (2 * q) * z = d * (2 * (q * z)) by ring, Int.add_mul_ediv_left _ _ hq.ne']
    omega
  generalize hz : (x / 2 ^ k % 2 : Int) = z at h2 ⊢
  rw [← h2]
  norm_cast

/-- Bit `k` of lane `j` of `BitCast` is bit `tT.bits * j + k` of the source register. -/
theorem bitcast_bit {tF tT : Ty} (hF : tF ∈ laneTys) (hT : tT ∈ laneTys) {v : List Int} (hv : v.length = cap tF)
    {j k : Nat} (hj : j < cap tT) (hk : k < tT.bits) :
    (bitsOf tT (lane (BitCast tF tT v) j)).getLsbD k =
      (bitsOf tF (lane v ((tT.bits * j + k) / tF.bits))).getLsbD ((tT.bits * j + k) % tF.bits) := by
  have hb : ∀ t ∈ laneTys, t.bits * cap t = 128 := by decide
  have hpos := bits_pos hF
  have h1 : tT.bits * j + k < 128 := by
    rw [← hb tT hT]
    calc tT.bits * j + k < tT.bits * j + tT.bits := by omega
      _ = tT.bits * (j + 1) := by ring
      _ ≤ _ := Nat.mul_le_mul_left _ hj
  rw [bitcast_lane v hj, bitsOf_wrap tT (bits_pos hT)]
  unfold bitsOf
  have hr := Nat.mod_lt (tT.bits * j + k) hpos
  rw [getLsbD_ofInt _ hk, getLsbD_ofInt _ hr]
  have hq : (tT.bits * j + k) / tF.bits < v.length := by
    rw [hv]; apply Nat.div_lt_of_lt_mul; rw [hb tF hF]; exact h1
  have e1 : total tF v / 2 ^ (tT.bits * j) / 2 ^ k =
      total tF v / 2 ^ (tF.bits * ((tT.bits * j + k) / tF.bits)) / 2 ^ ((tT.bits * j + k) % tF.bits) := by
    rw [Int.ediv_ediv_of_nonneg (by positivity), Int.ediv_ediv_of_nonneg (by positivity), ← pow_add, ← pow_add,
      Nat.div_add_mod]
  rw [e1, total_shift, drop_lane hq, total_cons]
  generalize total tF _ = T
  generalize (tT.bits * j + k) % tF.bits = r at hr
  have e : (2 : Int) ^ tF.bits = 2 ^ r * (2 * 2 ^ (tF.bits - r - 1)) := by
    rw [← pow_succ', ← pow_add]; congr 1; omega
  have hq : (0 : Int) < 2 ^ r := by positivity
  generalize lane v ((tT.bits * j + k) / tF.bits) = x
  rw [e]
  generalize (2 : Int) ^ (tF.bits - r - 1) = q at e
  generalize (2 : Int) ^ r = d at e hq ⊢
  have h3 := Int.emod_add_mul_ediv x (d * (2 * q))
  generalize x % (d * (2 * q)) = y at h3 ⊢
  generalize x / (d * (2 * q)) = z at h3
  rw [← h3, show d * (2 * q) * z = d * (2 * (q * z)) by ring, Int.add_mul_ediv_left _ _ hq.ne',
    show d * (2 * q) * T = d * (2 * (q * T)) by ring, Int.add_mul_ediv_left _ _ hq.ne']
  have h : (y / d + 2 * (q * T)) % 2 = (y / d + 2 * (q * z)) % 2 := by omega
  rw [h]

theorem is_bc {tF tT : Ty} (hF : tF ∈ laneTys) (hT : tT ∈ laneTys) {v : List Int} {N K : Nat} {F G : Nat → Int}
    (hv : Is tF N v F) (h : ∀ j, j < K → j < cap tT → ∀ x, tT.Has x → (∀ k, k < tT.bits →
      (bitsOf tT x).getLsbD k = (bitsOf tF (lane v ((tT.bits * j + k) / tF.bits))).getLsbD ((tT.bits * j + k) % tF.bits)) →
      x = G j) (hK : K ≤ cap tT) : Is tT K (BitCast tF tT v) G := by
  refine ⟨bitcast_reg hT v, fun j hj => h j hj (by omega) _ ((bitcast_reg hT v).lane_has (by omega)) fun k hk => ?_⟩
  exact bitcast_bit hF hT hv.1.len (by omega) hk

/-- `BitCast` to a type of the same width. -/
theorem is_bc_same {tF tT : Ty} {v : List Int} {N : Nat} {F : Nat → Int} (hv : Is tF N v F) (hT : tT ∈ laneTys)
    (hb : tT.bits = tF.bits) (hN : N ≤ cap tT) : Is tT N (BitCast tF tT v) (fun i => tT.wrap (F i)) := by
  have hc : cap tT = cap tF := by unfold cap; rw [hb]
  refine ⟨bitcast_reg hT v, fun j hj => ?_⟩
  have := bitcast_same (v := v) hb (j := j) (by omega) (by rw [hv.1.len]; omega)
  rw [hv.2 j hj] at this
  exact mod_unique hT ((bitcast_reg hT v).lane_has (by omega)) this

/-- `BitCast` to twice the width. -/
theorem is_bc_wide {tF tT : Ty} {v : List Int} {N : Nat} {F : Nat → Int} (hv : Is tF (2 * N) v F) (hF : tF ∈ laneTys)
    (hT : tT ∈ laneTys) (hb : tT.bits = 2 * tF.bits) (hN : N ≤ cap tT) :
    Is tT N (BitCast tF tT v) (fun i => tT.wrap (F (2 * i) % 2 ^ tF.bits + 2 ^ tF.bits * F (2 * i + 1))) := by
  have hc : cap tF = 2 * cap tT := (cap_double hT hF hb).symm
  refine ⟨bitcast_reg hT v, fun j hj => ?_⟩
  have := bitcast_wide (v := v) hb (j := j) (by omega) (by rw [hv.1.len]; omega)
  rw [hv.2 _ (by omega), hv.2 _ (by omega)] at this
  exact mod_unique hT ((bitcast_reg hT v).lane_has (by omega)) this

/-- `BitCast` to half the width. -/
theorem is_bc_narrow {tF tT : Ty} {v : List Int} {N : Nat} {F : Nat → Int} (hv : Is tF N v F) (hF : tF ∈ laneTys)
    (hT : tT ∈ laneTys) (hb : tF.bits = 2 * tT.bits) (hN : N ≤ cap tF) :
    Is tT (2 * N) (BitCast tF tT v) (fun i => tT.wrap (F (i / 2) / 2 ^ (tT.bits * (i % 2)))) := by
  have hc : cap tT = 2 * cap tF := (cap_double hF hT hb).symm
  refine ⟨bitcast_reg hT v, fun i hi => ?_⟩
  have := bitcast_narrow (v := v) hb (j := i / 2) (by omega) (by rw [hv.1.len]; omega)
  rw [hv.2 _ (by omega)] at this
  refine mod_unique hT ((bitcast_reg hT v).lane_has (by omega)) ?_
  have : i % 2 = 0 ∨ i % 2 = 1 := by omega
  rcases this with h | h
  · have e : i = 2 * (i / 2) := by omega
    rw [h, Nat.mul_zero, pow_zero, Int.ediv_one]
    conv_lhs => rw [e]
    exact (by assumption : _ ∧ _).1
  · have e : i = 2 * (i / 2) + 1 := by omega
    rw [h, Nat.mul_one]
    conv_lhs => rw [e]
    exact (by assumption : _ ∧ _).2

/-! ### Conversions -/

theorem xpromote {tF tT : Ty} {v : List Int} {N : Nat} {F : Nat → Int} (hv : Is tF N v F) (hF : tF ∈ laneTys)
    (hT : tT ∈ laneTys) (hb : tF.bits < tT.bits) (hs : tF.sgn = true → tT.sgn = true) (hN : N ≤ cap tT) :
    Runs tT N (PromoteInt tF tT N v) F :=
  (C49_promote hF hT hb hs hN hv.1).runs hN (fun i x hi _ e => by rw [e, hv.2 i hi])

theorem xtruncate {tF tT : Ty} {v : List Int} {N : Nat} {F : Nat → Int} (hv : Is tF N v F) (hF : tF ∈ laneTys)
    (hT : tT ∈ laneTys) (hb : tT.bits < tF.bits) (hu : tT.sgn = false) (hN : N ≤ cap tF) :
    Runs tT N (TruncateTo tF tT N v) (fun i => F i % 2 ^ tT.bits) :=
  (C49_truncate hF hT hb hu hN hv.1).runs (by have := cap_le hT hb.le; omega)
    (fun i x hi _ e => by rw [e, hv.2 i hi])

theorem xtruncate2 {tF tT : Ty} {a b : List Int} {N : Nat} {F G : Nat → Int} (ha : Is tF N a F) (hb : Is tF N b G)
    (hF : tF ∈ laneTys) (hT : tT ∈ laneTys) (hw : tF.bits = 2 * tT.bits) (hu : tT.sgn = false) (hN : N ≤ cap tF) :
    Runs tT (2 * N) (OrderedTruncate2To tF tT N a b) (fun i => (if i < N then F i else G (i - N)) % 2 ^ tT.bits) :=
  (C49_ordered_truncate2 hF hT hw hu hN ha.1 hb.1).runs (by have := cap_double hF hT hw; omega)
    (fun i x hi _ e => by
      rw [e]
      by_cases h : i < N
      · rw [if_pos h, if_pos h, ha.2 i h]
      · rw [if_neg h, if_neg h, hb.2 _ (by omega)])

theorem xu8fromu32 {v : List Int} {N : Nat} {F : Nat → Int} (hv : Is u32 N v F) (hN : N ≤ 4) :
    Runs u8 N (U8FromU32 N v) (fun i => min 255 (F i)) :=
  (C49_u8_from_u32 hN hv.1).runs (by show N ≤ 16; omega) (fun i x hi _ e => by rw [e, hv.2 i hi])

/-- Conversion of integers to `float`. -/
theorem xi2f {t : Ty} {v : List Int} {N : Nat} {F : Nat → Int} (hv : Is t N v F) (hN : N ≤ 4)
    (hNt : N ≤ cap t) : Runs u32 N (ConvertI2F f32 N v) (fun i => (ofInt f32 (F i) : Nat)) := by
  refine Runs.of ?_
  refine conv_lanes (t := u32) (by decide) hN (by rw [hv.1.len]; exact hNt) (fun i hi => ?_)
  refine ⟨_, rfl, ?_, by rw [hv.2 i hi]⟩
  have h1 := ofInt_lt std32 (lane v i)
  have h2 : (2 : Nat) ^ (f32.w + 1) = 4294967296 := by decide
  rw [h2] at h1
  constructor
  · exact Int.natCast_nonneg _
  · show _ ≤ (4294967295 : Int)
    omega

end Emu
end Hwy
