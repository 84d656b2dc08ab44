import Verif.GenRotSpec3
import Verif.GenDotExamples

/-!
# Concrete cases for C58
-/

namespace Hwy
namespace Emu
open CInt

def exR64 : List Int := [0x0123456789ABCDEF, 0xFEDCBA9876543210]
theorem exR64R : Reg u64 exR64 := by decide +kernel

example := C58_rol (t := i32) (N := 4) (by decide) (by decide) true exR exS
example := C58_rotate_left_same (t := u8) (N := 16) (by decide) (by decide) true exU8R (k := -3) (by decide)
example := C58_bit_shuffle (t := u64) (tI := i8) (N := 2) true (Or.inl rfl) (Or.inr rfl) (Or.inr rfl) exR64R exI8R
example := C58_multi_rotate_right (t := u64) (tI := u8) (N := 2) true (Or.inl rfl) (Or.inl rfl) (Or.inr rfl) exR64R exU8R

/-- Negative and large counts are taken modulo the width. -/
example : Rol true i32 4 [1, 1, -2147483648, 0x12345678] [-1, 33, 1, 36] = .ok [-2147483648, 2, 1, 0x23456781] ∧
    Ror true u8 4 ([1, 1, 0x80, 0x12] ++ List.replicate 12 0) ([1, 9, 255, 4] ++ List.replicate 12 0) =
      .ok ([0x80, 0x80, 1, 0x21] ++ List.replicate 12 0) ∧
    RotateLeftSame true u8 2 ([0x81, 0x40] ++ List.replicate 14 0) (-1) = .ok ([0xC0, 0x20] ++ List.replicate 14 0) := by decide +kernel

/-- Bits 0, 4, 8, ... of the first lane; the second lane's bits 63, 62, .... -/
example : BitShuffle true u64 u8 2 exR64 [0, 4, 8, 12, 16, 20, 24, 28, 63, 62, 61, 60, 59, 58, 57, 56] =
    .ok [0x55, 0x7F] := by decide +kernel

/-- Rotations by multiples of 4, by 60 wrapping around the lane, and by 64 (= 0). -/
example : MultiRotateRight true u64 u8 2 exR64 [0, 4, 8, 12, 60, 56, 64, 63, 0, 4, 8, 12, 60, 56, 64, 1] =
    .ok [0xDEEF01F0BCCDDEEF, 0x0810FE0F43322110] := by decide +kernel

end Emu
end Hwy
