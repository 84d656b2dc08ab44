import Verif.EmuConvSpec4

/-! Concrete cases meeting the hypotheses of the C49 theorems, and the results they speak about. -/

namespace Hwy
namespace Emu
open CInt Flt

example : Reg i32 [300, -300, 5, -128] ∧ DemoteS i32 i8 4 [300, -300, 5, -128] = .ok ([127, -128, 5, -128] ++ List.replicate 12 0) :=
  ⟨⟨by decide, by decide⟩, by decide +kernel⟩
example : DemoteS i32 u16 4 [70000, -1, 5, 65535] = .ok [65535, 0, 5, 65535, 0, 0, 0, 0] := by decide +kernel
example : DemoteU u32 i16 4 [4294967295, 32768, 5, 0] = .ok [32767, 32767, 5, 0, 0, 0, 0, 0] := by decide +kernel
example : PromoteInt i16 i64 2 [-5, 7, 1, 1, 1, 1, 1, 1] = .ok [-5, 7] := by decide +kernel
example : OrderedDemote2S i64 i32 2 [2 ^ 40, -3] [-(2 ^ 40), 9] = .ok [2147483647, -3, -2147483648, 9] := by decide +kernel
example : TruncateTo u64 u8 2 [0x1234, 0xFFFFFFFFFFFFFFFF] = .ok ([0x34, 0xFF] ++ List.replicate 14 0) := by decide +kernel
example : OrderedTruncate2To u64 u32 2 [2 ^ 40 + 1, 2] [2 ^ 35 + 7, 2 ^ 33] = .ok [1, 2, 7, 0] := by decide +kernel
example : U8FromU32 4 [1, 255, 256, 4294967295] = .ok ([1, 255, 255, 255] ++ List.replicate 12 0) := by decide +kernel

/-- `-2.75`, `1e30`, `-inf`, NaN. -/
example : Reg f32.ut [0xC0300000, 0x7149F2CA, 0xFF800000, 0x7FC00000] ∧
    ConvertF2I f32 i32 4 [0xC0300000, 0x7149F2CA, 0xFF800000, 0x7FC00000] = .ok [-2, 2147483647, -2147483648, 2147483647] ∧
    ConvertF2I f32 u32 4 [0xC0300000, 0x7149F2CA, 0xFF800000, 0x7FC00000] = .ok [0, 4294967295, 0, 4294967295] ∧
    ConvertInRangeF2I f32 i32 4 [0xC0300000, 0xCF000000, 0x3F000000, 0x4EFFFFFF] = .ok [-2, -2147483648, 0, 2147483520] :=
  ⟨⟨by decide, by decide⟩, by decide +kernel, by decide +kernel, by decide +kernel⟩
example : f32.Fin 0xC0300000 ∧ ¬ f32.Fin 0xFF800000 ∧ ¬ f32.Fin 0x7FC00000 := by unfold Fmt.Fin; decide

/-- `16777217` is a tie between `16777216` and `16777218`. -/
example : ConvertI2F f32 4 [16777217, 16777219, -1, 0] = .ok [0x4B800000, 0x4B800002, 0xBF800000, 0] := by decide +kernel
example : ConvertI2F f64 2 [-3, 2147483647, 0, 0] = .ok [0xC008000000000000, 0x41DFFFFFFFC00000] := by decide +kernel

/-- `1.0f`, the smallest subnormal `float`. -/
example : PromoteF32 2 [0x3F800000, 1, 0, 0] = .ok [0x3FF0000000000000, 0x36A0000000000000] := by decide +kernel
example : PromoteF32 2 [0xFF800000, 0x7F800001, 0, 0] = .ok [0xFFF0000000000000, 0x7FF8000020000000] := by decide +kernel

/-- `1e300`, `-inf`; `0.1`, NaN. -/
example : DemoteF64 2 [0x7E37E43C8800759C, 0xFFF0000000000000] = .ok [0x7F7FFFFF, 0xFF7FFFFF, 0, 0] := by decide +kernel
example : DemoteF64 2 [0x3FB999999999999A, 0x7FF8000000000000] = .ok [0x3DCCCCCD, 0x7FC00000, 0, 0] := by decide +kernel

example : BitCast u8 u32 (List.range 16 |>.map Int.ofNat) = [0x03020100, 0x07060504, 0x0B0A0908, 0x0F0E0D0C] := by
  decide +kernel
example : PromoteEvenTo true i16 i32 4 [-5, 7, 3, -9, 32767, 1, -32768, 2] = .ok [-5, 3, 32767, -32768] := by decide +kernel
example : PromoteOddTo false i16 i32 4 [-5, 7, 3, -9, 32767, 1, -32768, 2] = .ok [7, -9, 1, 2] := by decide +kernel
example : PromoteEvenTo true u16 i32 2 [5, 65535, 65535, 9, 0, 0, 0, 0] = .ok [5, 65535, 0, 0] := by decide +kernel
example : WidenMulPairwiseAdd true i16 4 [1, 2, -3, 4, 5, 6, 7, 8] [10, 20, 30, 40, 50, 60, 70, 80] =
    .ok [50, 70, 610, 1130] := by decide +kernel
example : ReorderWidenMulAccumulate true i16 4 [1, 2, -3, 4, 5, 6, 7, 8] [10, 20, 30, 40, 50, 60, 70, 80]
    [1000, 0, 0, 0] [0, 2000, 0, 0] = .ok ([1010, -90, 250, 490], [40, 2160, 360, 640]) := by decide +kernel
example : SumsOf2 true u8 8 (List.replicate 16 255) = .ok (List.replicate 8 510) := by decide +kernel
example : ReorderDemote2BF16 4 [0x3F800000, 0x7F800001, 0, 0] [0x40000000, 0xBF80FFFF, 0, 0] =
    .ok [0x4000, 0x3F80, 0xBF80, 0x7F80, 0, 0, 0, 0] := by decide +kernel
example : DemoteBF16 4 [0x3F808000, 0x3F818000, 0x7F800001, 0] = .ok [0x3F80, 0x3F82, 0x7FC0, 0, 0, 0, 0, 0] := by
  decide +kernel

end Emu
end Hwy
