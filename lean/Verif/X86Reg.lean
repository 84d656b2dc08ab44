/-!
# 128-bit x86 registers and their lanes

The x86 targets up to and including AVX2 keep vectors *and masks* in one 128-bit register
(`hwy/ops/x86_128-inl.h:56-205`, `Raw128`, `Vec128`, `Mask128`).  A register is a `BitVec 128`; a vector of `N` lanes
of `w` bits is the register itself, of which only lanes `0 .. N-1` are meaningful (a partial
vector leaves the other bits arbitrary).
-/

namespace Hwy.X86

/-- An `__m128i` / `__m128` / `__m128d` register, `x86_128-inl.h:56-110` (`Raw128`). -/
abbrev M128 := BitVec 128

/-- Lane `i` of `w` bits: bits `w*i .. w*i+w-1` (x86 is little-endian). -/
def lane (w i : Nat) (r : M128) : BitVec w := r.extractLsb' (w * i) w

/-- The register whose `w`-bit lane `i` is `f i`. -/
def mk (w : Nat) (f : Nat → BitVec w) : M128 :=
  (List.range (128 / w)).foldl (fun r i => r ||| ((f i).setWidth 128 <<< (w * i))) 0

theorem getLsbD_fold (w : Nat) (hw : 0 < w) (f : Nat → BitVec w) (n k : Nat) :
    ((List.range n).foldl (fun (r : M128) i => r ||| ((f i).setWidth 128 <<< (w * i))) 0).getLsbD k
      = (decide (k < 128) && decide (k / w < n) && (f (k / w)).getLsbD (k % w)) := by
  induction n with
  | zero => simp
  | succ n ih =>
    rw [List.range_succ, List.foldl_append]
    simp only [List.foldl_cons, List.foldl_nil, BitVec.getLsbD_or, ih, BitVec.getLsbD_shiftLeft,
      BitVec.getLsbD_setWidth]
    by_cases hk : k < 128
    · by_cases h1 : k / w < n
      · have h2 : ¬ k < w * n → False := fun h => by
          have : n ≤ k / w := (Nat.le_div_iff_mul_le hw).2 (by rw [Nat.mul_comm]; omega)
          omega
        have h3 : k < w * n := by
          by_cases h : k < w * n
          · exact h
          · exact (h2 h).elim
        have h4 : k / w < n + 1 := by omega
        simp [hk, h1, h3, h4]
      · by_cases h5 : k / w = n
        · have h6 : ¬ k < w * n := by
            intro h
            have := (Nat.div_lt_iff_lt_mul hw).2 (by rw [Nat.mul_comm]; exact h : k < n * w)
            omega
          have h7 : k - w * n = k % w := by
            have := Nat.div_add_mod k w
            rw [h5] at this; omega
          have h8 : k % w < 128 := Nat.lt_of_le_of_lt (Nat.mod_le _ _) hk
          simp [hk, h6, h7, h5, h8]
        · have h8 : ¬ k / w < n + 1 := by omega
          have h9 : ¬ (k < w * n) := by
            intro h
            have := (Nat.div_lt_iff_lt_mul hw).2 (by rw [Nat.mul_comm]; exact h : k < n * w)
            omega
          have h10 : (f n).getLsbD (k - w * n) = false := by
            apply BitVec.getLsbD_of_ge
            have : w * (n + 1) ≤ k := by
              have := (Nat.le_div_iff_mul_le hw).1 (by omega : n + 1 ≤ k / w)
              rw [Nat.mul_comm]; exact this
            rw [Nat.mul_add] at this; omega
          simp [h1, h8, h10]
    · simp [hk]

theorem getLsbD_mk (w : Nat) (hw : 0 < w) (f : Nat → BitVec w) (k : Nat) :
    (mk w f).getLsbD k
      = (decide (k < 128) && decide (k / w < 128 / w) && (f (k / w)).getLsbD (k % w)) :=
  getLsbD_fold w hw f _ k

theorem getLsbD_lane (w i : Nat) (r : M128) (k : Nat) :
    (lane w i r).getLsbD k = (decide (k < w) && r.getLsbD (w * i + k)) := by
  unfold lane; rw [BitVec.getLsbD_extractLsb']

theorem lane_ext (w : Nat) {a b : BitVec w} (h : ∀ k, k < w → a.getLsbD k = b.getLsbD k) : a = b :=
  BitVec.eq_of_getLsbD_eq h

/-- Reading back a lane of a register built lane by lane. -/
theorem lane_mk {w i : Nat} (hw : 0 < w) (hi : w * i + w ≤ 128) (f : Nat → BitVec w) :
    lane w i (mk w f) = f i := by
  apply lane_ext
  intro k hk
  rw [getLsbD_lane, getLsbD_mk w hw]
  have h1 : (w * i + k) / w = i := by
    rw [Nat.mul_add_div hw, Nat.div_eq_of_lt hk]; omega
  have h2 : (w * i + k) % w = k := by
    rw [Nat.mul_add_mod, Nat.mod_eq_of_lt hk]
  have h3 : i < 128 / w := by
    have : (i + 1) * w ≤ 128 := by rw [Nat.add_mul, Nat.mul_comm]; omega
    have := (Nat.le_div_iff_mul_le hw).2 this
    omega
  rw [h1, h2]
  simp [hk, h3, show w * i + k < 128 by omega]

theorem lane_and (w i : Nat) (a b : M128) : lane w i (a &&& b) = lane w i a &&& lane w i b := by
  apply lane_ext; intro k hk; simp only [getLsbD_lane, BitVec.getLsbD_and, hk, decide_true, Bool.true_and]
theorem lane_or (w i : Nat) (a b : M128) : lane w i (a ||| b) = lane w i a ||| lane w i b := by
  apply lane_ext; intro k hk; simp only [getLsbD_lane, BitVec.getLsbD_or, hk, decide_true, Bool.true_and]
theorem lane_xor (w i : Nat) (a b : M128) : lane w i (a ^^^ b) = lane w i a ^^^ lane w i b := by
  apply lane_ext; intro k hk; simp only [getLsbD_lane, BitVec.getLsbD_xor, hk, decide_true, Bool.true_and]
theorem lane_not {w i : Nat} (hi : w * i + w ≤ 128) (a : M128) : lane w i (~~~a) = ~~~(lane w i a) := by
  apply lane_ext; intro k hk
  simp only [getLsbD_lane, BitVec.getLsbD_not, hk, decide_true, Bool.true_and, show w * i + k < 128 by omega]
theorem lane_zero (w i : Nat) : lane w i (0 : M128) = 0 := by
  apply lane_ext; intro k hk; simp [getLsbD_lane]

/-- A lane of `v` bits inside a lane of `v*m` bits. -/
theorem lane_sub (v m i j : Nat) (hj : j < m) (r : M128) :
    lane v (m * i + j) r = (lane (v * m) i r).extractLsb' (v * j) v := by
  apply lane_ext; intro k hk
  rw [getLsbD_lane, BitVec.getLsbD_extractLsb', getLsbD_lane]
  have h1 : v * j + k < v * m := by
    have h2 : v * (j + 1) ≤ v * m := Nat.mul_le_mul_left v hj
    rw [Nat.mul_add] at h2; omega
  have h2 : v * (m * i + j) + k = v * m * i + (v * j + k) := by
    rw [Nat.mul_add, ← Nat.mul_assoc]; omega
  simp [hk, h1, h2]

/-- Two registers with the same lanes (of any width dividing 128) are equal. -/
theorem reg_ext {w : Nat} (hw : 0 < w) (hd : 128 % w = 0) {a b : M128}
    (h : ∀ i, w * i + w ≤ 128 → lane w i a = lane w i b) : a = b := by
  apply BitVec.eq_of_getLsbD_eq
  intro k hk
  have h0 : w * (k / w) + k % w = k := Nat.div_add_mod k w
  have h1 : k % w < w := Nat.mod_lt _ hw
  have h3 : w * (128 / w) = 128 := by have := Nat.div_add_mod 128 w; omega
  have h2 : w * (k / w) + w ≤ 128 := by
    have h4 : k / w < 128 / w := by
      apply (Nat.div_lt_iff_lt_mul hw).2; rw [Nat.mul_comm, h3]; exact hk
    have := Nat.mul_le_mul_left w h4
    rw [Nat.mul_succ, h3] at this; exact this
  have := congrArg (fun x => x.getLsbD (k % w)) (h (k / w) h2)
  simp only [getLsbD_lane, h0] at this
  simpa [h1] using this

attribute [irreducible] lane mk

end Hwy.X86
