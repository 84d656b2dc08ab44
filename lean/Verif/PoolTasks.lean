import Verif.BaseArith

/-!
# Model of the sequential parts of `hwy/contrib/thread_pool/thread_pool.h`

`ShuffledIota` (victim order) and `Tasks::DivideRangeAmongWorkers` (static split).  `uint32_t` and
`uint64_t` values are `Nat` with explicit reduction wherever the C++ expression can wrap.
-/

namespace Hwy
namespace Pool

/-- `Num0BitsBelowLS1Bit_Nonzero32` of a `uint32_t` held in a `Nat`; at most `fuel` zeros. -/
def ctzN : Nat → Nat → Nat
  | 0, _ => 0
  | fuel + 1, n => if n % 2 = 1 then 0 else ctzN fuel (n / 2) + 1

/-- The `for (;;)` loop of `CoprimeNonzero` (thread_pool.h:114-127). Fuel exhaustion (non-termination)
is reported as a fault. -/
def coprimeLoop : Nat → Nat → Nat → M Bool
  | 0, _, _ => .error .abort
  | fuel + 1, a0, b0 =>
    let a := max a0 b0
    let b := min a0 b0
    if b = 1 then .ok true
    else
      let a := a - b
      if a = 0 then .ok false
      else coprimeLoop fuel (a >>> ctzN 32 a) b

/-- `ShuffledIota::CoprimeNonzero` (thread_pool.h:104-128). Arguments are `uint32_t`; zero is undefined
behaviour in the bit scan. No operation can wrap. -/
def coprimeNonzero (a b : Nat) : M Bool :=
  if a = 0 ∨ b = 0 then .error .ub
  else
    let ta := ctzN 32 a
    let tb := ctzN 32 b
    if min ta tb ≠ 0 then .ok false
    else coprimeLoop (a + b + 1) (a >>> ta) (b >>> tb)

/-- The search loop of `FindAnotherCoprime` (thread_pool.h:140-146): `x` from `start | 1`, `x < limit`,
step `inc`; `HWY_UNREACHABLE` (undefined behaviour) if exhausted. -/
def findLoop (size limit inc : Nat) : Nat → Nat → M Nat
  | 0, _ => .error .abort
  | fuel + 1, x =>
    if x < limit then do
      let c ← coprimeNonzero x size
      if c then return x else findLoop size limit inc fuel ((x + inc) % 2 ^ 32)
    else .error .ub

/-- `ShuffledIota::FindAnotherCoprime` (thread_pool.h:132-147), `uint32_t` arithmetic. -/
def findAnotherCoprime (size start : Nat) : M Nat :=
  if size ≤ 2 then .ok 1
  else
    let inc := if size % 2 = 1 then 1 else 2
    findLoop size ((start + size * 16 % 2 ^ 32) % 2 ^ 32) inc (size * 16 + 1) (start ||| 1)

/-- `ShuffledIota::Next` (thread_pool.h:96-100): `uint32_t` addition, then `Divisor64::Remainder`. -/
def next (coprime : Nat) (current : Nat) (divisor : Divisor64) : Nat :=
  (divisor.remainder (BitVec.ofNat 64 ((current + coprime) % 2 ^ 32))).toNat % 2 ^ 32

/-- `n` successive values of `Next`, starting with `current` itself. -/
def iotaSeq (coprime : Nat) (divisor : Divisor64) : Nat → Nat → List Nat
  | 0, _ => []
  | n + 1, current => current :: iotaSeq coprime divisor n (next coprime current divisor)

/-- Victim table built by the `Worker` constructor (thread_pool.h:293-314). -/
def victims (worker : Nat) (numWorkers : Nat) (divisor : Divisor64) : M (List Nat) := do
  let coprime ← findAnotherCoprime numWorkers ((worker + 1) * 257 + worker * 13)
  return iotaSeq coprime divisor (min 4 numWorkers) worker

/-- The loop of `DivideRangeAmongWorkers` (thread_pool.h:474-479): remaining workers, worker index,
`my_begin`. -/
def divideLoop (minTasks remainder : Nat) : Nat → Nat → Nat → List (Nat × Nat)
  | 0, _, _ => []
  | k + 1, worker, myBegin =>
    let myEnd := (myBegin + minTasks + (if worker < remainder then 1 else 0)) % 2 ^ 64
    (myBegin, myEnd) :: divideLoop minTasks remainder k (worker + 1) myEnd

/-- `Tasks::DivideRangeAmongWorkers` (thread_pool.h:458-481): the `SetRange` arguments, in worker
order. -/
def divideRange (begin_ end_ : Nat) (div : Divisor64) : List (Nat × Nat) :=
  let numWorkers := div.divisor.toNat
  let numTasks := (2 ^ 64 + end_ - begin_) % 2 ^ 64
  let minTasks := (div.divide (BitVec.ofNat 64 numTasks)).toNat
  let remainder := (div.remainder (BitVec.ofNat 64 numTasks)).toNat
  divideLoop minTasks remainder numWorkers 0 begin_

end Pool
end Hwy
