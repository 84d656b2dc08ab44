import Verif.X86OpsSpec3

/-! Byte sums, table lookups, Iota, FirstN. -/

namespace Hwy.X86

/-! ### Sums of bytes -/

theorem sum8 (f : Nat → Nat) : ((List.range 8).map f).sum
    = f 0 + f 1 + f 2 + f 3 + f 4 + f 5 + f 6 + f 7 := by
  simp [List.range, List.range.loop]; omega

theorem isum8 (f : Nat → Int) : ((List.range 8).map f).sum
    = f 0 + f 1 + f 2 + f 3 + f 4 + f 5 + f 6 + f 7 := by
  simp [List.range, List.range.loop]; omega

theorem sum8_cast (f : Nat → Nat) :
    ((((List.range 8).map f).sum : Nat) : Int) = ((List.range 8).map (fun j => (f j : Int))).sum := by
  rw [sum8, isum8]; omega

theorem sum8_lt (f : Nat → Nat) (h : ∀ j, f j < 256) : ((List.range 8).map f).sum < 2048 := by
  rw [sum8]
  have := h 0; have := h 1; have := h 2; have := h 3; have := h 4; have := h 5; have := h 6; have := h 7
  omega

theorem isum8_add (f : Nat → Int) :
    ((List.range 8).map (fun j => f j + 128)).sum = ((List.range 8).map f).sum + 1024 := by
  rw [isum8, isum8]; omega

/-- A small number survives the round trip through a 64-bit lane. -/
theorem toNat_small {S : Nat} (h : S < 2048) : (BitVec.ofNat 64 S).toNat = S := by
  rw [BitVec.toNat_ofNat]; exact Nat.mod_eq_of_lt (by omega)

theorem toInt_sub1024 {S : Nat} (h : S < 2048) :
    (BitVec.ofNat 64 S + BitVec.ofInt 64 (-1024)).toInt = (S : Int) - 1024 := by
  have e : BitVec.ofNat 64 S + BitVec.ofInt 64 (-1024) = BitVec.ofInt 64 ((S : Int) - 1024) := by
    rw [show ((S : Int) - 1024) = (S : Int) + (-1024) by omega, BitVec.ofInt_add, BitVec.ofInt_natCast]
  rw [e, BitVec.toInt_ofInt_eq_self (by omega) (by simp only [Nat.reduceSub, Int.reducePow]; omega)
    (by simp only [Nat.reduceSub, Int.reducePow]; omega)]

theorem lane_sad8 {i : Nat} (h : InReg 64 i) (a b : M128) : lane 64 i (sad8 a b) = BitVec.ofNat 64
    (((List.range 8).map (fun j => absDiffU (lane 8 (8 * i + j) a) (lane 8 (8 * i + j) b))).sum) :=
  lane_mk (by omega) h.le _

theorem absDiffU_lt (x y : BitVec 8) : absDiffU x y < 256 := by
  unfold absDiffU; have := x.isLt; have := y.isLt
  generalize x.toNat = a at *
  generalize y.toNat = b at *
  omega

theorem absDiffU_cast (x y : BitVec 8) : (absDiffU x y : Int) = Int.natAbs ((x.toNat : Int) - y.toNat) := by
  unfold absDiffU
  generalize x.toNat = a
  generalize y.toNat = b
  omega

theorem lane_flip {i j : Nat} (h : InReg 64 i) (hj : j < 8) (u : M128) :
    ((lane 8 (8 * i + j) (Xor u (SignBit 8))).toNat : Int) = (lane 8 (8 * i + j) u).toInt + 128 := by
  have hi2 : i < 2 := h.2
  rw [lane_Xor]; unfold SignBit
  rw [lane_set (⟨by omega, by omega⟩ : InReg 8 (8 * i + j)), xor_msb_toNat (by omega)]; rfl

theorem lane_SumsOf8U {i : Nat} (h : InReg 64 i) (u : M128) : lane 64 i (SumsOf8U u) = BitVec.ofNat 64
      (((List.range 8).map (fun j => (lane 8 (8 * i + j) u).toNat)).sum) := by
  have hz : ∀ x : BitVec 8, absDiffU x (0#8) = x.toNat := by intro x; unfold absDiffU; simp
  unfold SumsOf8U; rw [lane_sad8 h]; simp only [lane_zero', hz]

/-- `SumsOf8`: each 64-bit lane is the exact sum of its eight bytes, unsigned or signed. -/
theorem C62_sumsOf8 {i : Nat} (h : InReg 64 i) (v : M128) :
    val false (lane 64 i (SumsOf8U v)) = ((List.range 8).map (fun j => val false (lane 8 (8 * i + j) v))).sum ∧
    val true (lane 64 i (SumsOf8I v)) = ((List.range 8).map (fun j => val true (lane 8 (8 * i + j) v))).sum := by
  unfold val; simp only [Bool.false_eq_true, if_false, if_true]
  constructor
  · rw [lane_SumsOf8U h, toNat_small (sum8_lt _ (fun j => (lane 8 _ v).isLt)), sum8_cast]
  · unfold SumsOf8I
    rw [lane_Add h, lane_SumsOf8U h, lane_set h, toInt_sub1024 (sum8_lt _ (fun j => (lane 8 _ _).isLt)),
      sum8_cast]
    have : (List.range 8).map (fun j => ((lane 8 (8 * i + j) (Xor v (SignBit 8))).toNat : Int))
        = (List.range 8).map (fun j => (lane 8 (8 * i + j) v).toInt + 128) := by
      apply List.map_congr_left
      intro j hj
      exact lane_flip h (List.mem_range.1 hj) v
    rw [this, isum8_add]; omega

/-- `SumsOf8AbsDiff`: the exact sum of the absolute differences of eight byte pairs. -/
theorem C62_sumsOf8AbsDiff (signed : Bool) {i : Nat} (h : InReg 64 i) (a b : M128) :
    val false (lane 64 i (SumsOf8AbsDiff signed a b)) = ((List.range 8).map (fun j =>
      (Int.natAbs (val signed (lane 8 (8 * i + j) a) - val signed (lane 8 (8 * i + j) b)) : Int))).sum := by
  have hv : ∀ (a b : M128), val false (lane 64 i (sad8 a b)) = ((List.range 8).map (fun j =>
      (Int.natAbs (val false (lane 8 (8 * i + j) a) - val false (lane 8 (8 * i + j) b)) : Int))).sum := by
    intro a b
    rw [lane_sad8 h]; unfold val; simp only [Bool.false_eq_true, if_false]
    rw [toNat_small (sum8_lt _ (fun j => absDiffU_lt _ _)), sum8_cast]
    simp only [absDiffU_cast]
  unfold SumsOf8AbsDiff
  cases signed
  · exact hv a b
  · simp only [if_true]
    rw [hv]
    congr 1
    apply List.map_congr_left
    intro j hj
    have hj8 : j < 8 := List.mem_range.1 hj
    unfold val; simp only [Bool.false_eq_true, if_false, if_true]
    rw [lane_flip h hj8, lane_flip h hj8]
    generalize (lane 8 (8 * i + j) a).toInt = x
    generalize (lane 8 (8 * i + j) b).toInt = y
    omega

/-! ### Table lookup, Iota, FirstN -/

/-- `TableLookupBytes`: any target returns byte `from[i]` for indices below 16. -/
theorem C62_tableLookupBytes (t : Tgt) {i : Nat} (hi : i < 16) (bytes from_ : M128)
    (hf : (lane 8 i from_).toNat < 16) :
    lane 8 i (TableLookupBytes t bytes from_) = lane 8 (lane 8 i from_).toNat bytes := by
  have hm : (lane 8 i from_).msb = false := by
    rw [BitVec.msb_eq_decide]; simp; omega
  unfold TableLookupBytes
  split
  · rw [lane_mk (by omega) (by omega), Nat.mod_eq_of_lt hf]
  · unfold shuffle8
    rw [lane_mk (by omega) (by omega), hm, Nat.mod_eq_of_lt hf]; simp

/-- `TableLookupBytesOr0`: additionally zero where the index has its top bit set. -/
theorem C62_tableLookupBytesOr0 (t : Tgt) {i : Nat} (hi : i < 16) (bytes from_ : M128)
    (hf : (lane 8 i from_).toNat < 16 ∨ 128 ≤ (lane 8 i from_).toNat) :
    lane 8 i (TableLookupBytesOr0 t bytes from_)
      = if 128 ≤ (lane 8 i from_).toNat then 0#8 else lane 8 (lane 8 i from_).toNat bytes := by
  have h : InReg 8 i := ⟨by omega, by omega⟩
  have hm : (lane 8 i from_).msb = decide (128 ≤ (lane 8 i from_).toNat) := by
    rw [BitVec.msb_eq_decide]
  unfold TableLookupBytesOr0
  split
  · have hl := C62_lt t true h from_ zero
    rw [C62_ifThenZeroElse h _ _ (isMask_of hl)]
    have : isTrue 8 i (Lt t true 8 from_ zero) ↔ 128 ≤ (lane 8 i from_).toNat := by
      rw [isTrue_of h hl]; unfold val; simp only [if_true, lane_zero', BitVec.toInt_zero]
      have := (lane 8 i from_).isLt
      rw [BitVec.toInt_eq_toNat_cond]; split <;> omega
    simp only [this]
    by_cases c : 128 ≤ (lane 8 i from_).toNat
    · simp [c]
    · simp only [c, if_false]
      exact C62_tableLookupBytes t hi bytes from_ (by omega)
  · by_cases c : 128 ≤ (lane 8 i from_).toNat
    · rename_i hs
      unfold TableLookupBytes shuffle8
      rw [if_neg hs, lane_mk (by omega) (by omega), hm]; simp [c]
    · rw [if_neg c]; exact C62_tableLookupBytes t hi bytes from_ (by omega)

theorem C62_iota {w i : Nat} (h : InReg w i) (first : BitVec w) :
    lane w i (Iota w first) = first + BitVec.ofNat w i := by
  unfold Iota Iota0
  rw [lane_Add h, lane_mk h.pos h.le, lane_set h, BitVec.add_comm]

/-- `FirstN(d, num)`: lane `i` is true exactly when `i < num`, for every `num` (also larger than the
vector), every lane type and every vector length `kN`. -/
theorem C62_firstN (t : Tgt) {w i : Nat} (h : InReg w i) (kN num : Nat) (hk : kN ≤ 128 / w) (hi : i < kN) :
    lane w i (FirstN t w kN num) = if i < num then BitVec.allOnes w else 0#w := by
  unfold FirstN Iota0
  rw [C62_lt t true h, lane_mk h.pos h.le, lane_set h]
  apply maskLane_congr
  have hs : ∀ n, n ≤ 16 → 128 / w ≥ n → (BitVec.ofNat w n).toInt = n := by
    intro n hn hw
    rw [BitVec.toInt_eq_toNat_cond, BitVec.toNat_ofNat]
    obtain ⟨rfl | rfl | rfl | rfl, _⟩ := h <;> simp only [Nat.reducePow] <;> split <;> omega
  have h16 : 128 / w ≤ 16 := by obtain ⟨rfl | rfl | rfl | rfl, _⟩ := h <;> omega
  unfold val; simp only [if_true]
  rw [hs i (by omega) (by omega), hs (min num kN) (by omega) (by omega)]
  omega

end Hwy.X86
