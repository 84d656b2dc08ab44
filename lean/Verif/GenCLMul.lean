import Verif.EmuArithSpec3

/-!
# Model of `CLMulLower`, `CLMulUpper` of `hwy/ops/generic_ops-inl.h`

The generic implementation, used by every target without AES instructions, running on the reference
target's operations.
-/

namespace Hwy
namespace Emu
open CInt

/-- `CLMulLower` (generic_ops-inl.h:4422-4448, `odd = 0`) and `CLMulUpper` (generic_ops-inl.h:4450-4476,
`odd = 1`).  The two functions differ only in calling `MulEven` or `MulOdd`, which for 64-bit lanes are
`mulWiden64 u64 0` and `mulWiden64 u64 1`; full vectors (two lanes). -/
def clMul (odd : Nat) (a b : List Int) : M (List Int) := do
  let k1 ← Set u64 2 0x1111111111111111
  let k2 ← Set u64 2 0x2222222222222222
  let k4 ← Set u64 2 0x4444444444444444
  let k8 ← Set u64 2 0x8888888888888888
  let a0 ← And u64 2 a k1
  let a1 ← And u64 2 a k2
  let a2 ← And u64 2 a k4
  let a3 ← And u64 2 a k8
  let b0 ← And u64 2 b k1
  let b1 ← And u64 2 b k2
  let b2 ← And u64 2 b k4
  let b3 ← And u64 2 b k8
  let m0 ← Xor u64 2 (← mulWiden64 u64 odd a0 b0) (← mulWiden64 u64 odd a1 b3)
  let m1 ← Xor u64 2 (← mulWiden64 u64 odd a0 b1) (← mulWiden64 u64 odd a1 b0)
  let m2 ← Xor u64 2 (← mulWiden64 u64 odd a0 b2) (← mulWiden64 u64 odd a1 b1)
  let m3 ← Xor u64 2 (← mulWiden64 u64 odd a0 b3) (← mulWiden64 u64 odd a1 b2)
  let m0 ← Xor u64 2 m0 (← Xor u64 2 (← mulWiden64 u64 odd a2 b2) (← mulWiden64 u64 odd a3 b1))
  let m1 ← Xor u64 2 m1 (← Xor u64 2 (← mulWiden64 u64 odd a2 b3) (← mulWiden64 u64 odd a3 b2))
  let m2 ← Xor u64 2 m2 (← Xor u64 2 (← mulWiden64 u64 odd a2 b0) (← mulWiden64 u64 odd a3 b3))
  let m3 ← Xor u64 2 m3 (← Xor u64 2 (← mulWiden64 u64 odd a2 b1) (← mulWiden64 u64 odd a3 b0))
  Or u64 2 (← Or u64 2 (← And u64 2 m0 k1) (← And u64 2 m1 k2))
    (← Or u64 2 (← And u64 2 m2 k4) (← And u64 2 m3 k8))

/-- `CLMulLower` (generic_ops-inl.h:4422-4448). -/
def CLMulLower (a b : List Int) : M (List Int) := clMul 0 a b
/-- `CLMulUpper` (generic_ops-inl.h:4450-4476). -/
def CLMulUpper (a b : List Int) : M (List Int) := clMul 1 a b

end Emu
end Hwy
