import Verif.EmuArithSpec4

/-!
# The hypotheses of the C38 theorems are met, and the operations do compute

Registers with extreme lane values and with padding (`N` smaller than a full vector), masks, bits, and
the overflow condition of `ReduceSum`.
-/

namespace Hwy
namespace Emu
open CInt

instance (t : Ty) (a : List Int) : Decidable (Reg t a) :=
  decidable_of_iff (a.length = cap t ∧ ∀ x ∈ a, t.Has x) ⟨fun h => ⟨h.1, h.2⟩, fun h => ⟨h.1, h.2⟩⟩

def exA : List Int := [2147483647, -2147483648, -1, 5]
def exB : List Int := [1, -1, -2147483648, 3]
theorem exR : Reg i32 exA := by decide +kernel
theorem exS : Reg i32 exB := by decide +kernel
def ex8 : List Int := [255, 1, 2, 3, 4, 5, 6, 7, 128, 129, 130, 0, 0, 0, 0, 200]
theorem ex8R : Reg u8 ex8 := by decide +kernel
def ex64 : List Int := [18446744073709551615, 3]
theorem ex64R : Reg u64 ex64 := by decide +kernel
def ey64 : List Int := [0, 4]
theorem ey64R : Reg u64 ey64 := by decide +kernel
def exM : List Int := [4294967295, 0, 4294967295, 7]

/-- A three-lane mask with garbage in the padding lane. -/
theorem exMask : IsMask i32 3 exM (fun i => i % 2 == 0) :=
  ⟨by decide, by decide +kernel, fun i hi => by interval_cases i <;> decide⟩

example : i32 ∈ laneTys ∧ 3 ≤ cap i32 := by decide
example := C38_add (t := i32) (by decide) (N := 3) (by decide) exR exS
example := C38_if_then_else (t := i32) (by decide) (N := 3) (by decide) exMask exR exS
example := C38_compare (t := i32) (by decide) (N := 4) (by decide) exR exS
example := C38_compare128 ex64R ey64R
example := C38_minmax128 ex64R ey64R
example := C38_sums_of_8 (Or.inl rfl) (N := 16) (by decide) ex8R
example := C38_saturated_add (t := u8) (by decide) (N := 9) (by decide) ex8R ex8R
example := C38_shift_left (t := i32) (by decide) (N := 3) (by decide) exR (k := 31) (by decide)
example := C38_mul_fixed_point15 (N := 2) (by decide) (a := [-32768, 1, 2, 3, 4, 5, 6, 7])
  (b := [-32768, 16384, 0, 0, 0, 0, 0, 0]) (by decide +kernel) (by decide +kernel)
example := C38_test_bit (t := u8) (by decide) (N := 9) (by decide) ex8R
  (bit := [128, 1, 1, 1, 1, 1, 1, 1, 128, 1, 1, 1, 1, 1, 1, 1]) (by decide +kernel)
  (fun i => if i % 8 = 0 then 7 else 0) (by intro i hi; interval_cases i <;> decide)
  (by intro i hi; interval_cases i <;> decide)
example := C38_reduce_sum (t := i32) (by decide) (N := 4) (by decide) (v := [2147483647, -5, 3, 1])
  (by decide +kernel) (by intro _ k hk; interval_cases k <;> decide +kernel)
example := C38_of_lanes (t := u8) (by decide) (N := 16) (by decide) (by decide) ex8R

/-! Evaluations. -/

example : Add i32 3 exA exB = .ok [-2147483648, 2147483647, 2147483647, 5] := by decide +kernel
example : SaturatedAdd u8 9 ex8 ex8 = .ok [255, 2, 4, 6, 8, 10, 12, 14, 255, 129, 130, 0, 0, 0, 0, 200] := by
  decide +kernel
example : SumsOf8 u8 16 ex8 = .ok [283, 587] := by decide +kernel
example : IfThenElse i32 3 exM exA exB = .ok [2147483647, -1, -1, 7] := by decide +kernel
example : Min128 ex64 ey64 = .ok ex64 := by decide +kernel
example : Lt i32 4 exA exB = .ok [0, 4294967295, 0, 0] := by decide +kernel
example : MulHigh i32 4 exA exB = .ok [0, 0, 0, 0] := by decide +kernel
example : MulEven i32 4 exA exB = .ok [2147483647, 2147483648] := by decide +kernel
example : RotateRight true i32 4 4 exA = .ok [-134217729, 134217728, -1, 1342177280] := by decide +kernel
example : ReduceSum i8 16 [100, 100, 0, 0, 0, 0, 0, 0, 0, 0, 0, 0, 0, 0, 0, 0] = .ok (-56) := by decide +kernel
example : Iota u8 4 254 = .ok [254, 255, 0, 1, 0, 0, 0, 0, 0, 0, 0, 0, 0, 0, 0, 0] := by decide +kernel

end Emu
end Hwy
