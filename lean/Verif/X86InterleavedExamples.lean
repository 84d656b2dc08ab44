import Verif.X86InterleavedSpec2
import Verif.X86MaskExamples

/-!
# Concrete cases for C69
-/

namespace Hwy.X86

/-- Memory counting up. -/
def iMem (w : Nat) : Mem w := fun i => BitVec.ofNat w (3 * i + 1)

example (t : Tgt) : lane 8 15 (LoadInterleaved3 t 8 16 (iMem 8)).2.2 = 142#8 := by
  rw [(C69_loadInterleaved3 t (by simp [Shape]) (iMem 8) (by decide)).2.2]; decide +kernel
example (t : Tgt) : lane 16 3 (LoadInterleaved4 t 16 8 (iMem 16)).2.1 = 40#16 := by
  rw [(C69_loadInterleaved4 t (by simp [Shape]) (iMem 16) (by decide)).2.1]; decide +kernel
example (t : Tgt) : lane 64 1 (LoadInterleaved2 t 64 16 (iMem 64)).2 = 10#64 := by
  rw [(C69_loadInterleaved2 t (by simp [Shape]) (iMem 64) (by decide)).2]; decide +kernel
example (t : Tgt) : lane 32 0 (LoadInterleaved3 t 32 4 (iMem 32)).2.1 = 4#32 := by
  rw [(C69_loadInterleaved3 t (by simp [Shape]) (iMem 32) (by decide)).2.1]; decide +kernel
example (t : Tgt) : StoreInterleaved3 t 8 8 kV8 (set 8 7#8) (set 8 9#8) kMem8 21 = 0x17#8 := by
  rw [C69_storeInterleaved3 t (by simp [Shape])]; decide +kernel
example (t : Tgt) : StoreInterleaved3 t 8 8 kV8 (set 8 7#8) (set 8 9#8) kMem8 24 = 0xEE#8 := by
  rw [C69_storeInterleaved3 t (by simp [Shape])]; decide +kernel
example (t : Tgt) : StoreInterleaved4 t 8 16 (set 8 1#8) (set 8 7#8) kV8 (set 8 9#8) kMem8 62 = 0x1F#8 := by
  rw [C69_storeInterleaved4 t (by simp [Shape])]; decide +kernel
example (t : Tgt) : StoreInterleaved2 t 8 2 (set 8 1#8) kV8 kMem8 3 = 0x11#8 := by
  rw [C69_storeInterleaved2 t (by simp [Shape])]; decide +kernel
example (t t' : Tgt) : lane 8 13 (LoadInterleaved3 t' 8 16 (StoreInterleaved3 t 8 16 kV8 zero (set 8 3#8) kMem8)).1 = 0x1D#8 := by
  rw [(C69_roundTrip3 t t' (by simp [Shape]) _ _ _ _ (by decide)).1]; decide +kernel

/-- The interpreted model agrees, table by table (SSE2 lookups). -/
example : lane 8 7 (LoadInterleaved3 .ssse3 8 8 (iMem 8)).2.1 = iMem 8 22 := by decide +kernel
example : StoreInterleaved4 .sse2 32 16 xA xB xA xB (iMem 32) 9 = lane 32 2 xB := by decide +kernel

end Hwy.X86
