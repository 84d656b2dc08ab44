import Verif.EmuFloat

/-!
# Model of the floating-point arithmetic of `hwy/ops/emu128-inl.h`

As in `Verif/EmuFloat.lean` a lane is its bit pattern.  The first section is the IEEE arithmetic that the C++
operators `*` and `/` compile to (trusted): exact product and quotient rounded to nearest even.
-/

namespace Hwy
namespace Flt

/-- IEEE `a * b`. -/
def fmul (F : Fmt) (a b : Nat) : Nat :=
  let s := F.neg a != F.neg b
  if F.nan a || F.nan b then F.qnan
  else if F.mag a = F.inf ∨ F.mag b = F.inf then
    (if F.mag a = 0 ∨ F.mag b = 0 then F.qnan else F.pack s F.inf)
  else F.pack s (rneEncode F F.unit (F.val (F.mag a) * F.val (F.mag b)))

/-- `m / n` in half units, with a sticky bit: `2 * floor(m / n) + (n does not divide m)`. -/
def stickyDiv (m n : Nat) : Nat := 2 * (m / n) + (if m % n = 0 then 0 else 1)

/-- IEEE `a / b`.  The quotient is computed to a quarter of a unit with a sticky bit, then rounded. -/
def fdiv (F : Fmt) (a b : Nat) : Nat :=
  let s := F.neg a != F.neg b
  if F.nan a || F.nan b then F.qnan
  else if F.mag a = F.inf then (if F.mag b = F.inf then F.qnan else F.pack s F.inf)
  else if F.mag b = F.inf then F.pack s 0
  else if F.mag b = 0 then (if F.mag a = 0 then F.qnan else F.pack s F.inf)
  else F.pack s (rneEncode F 2 (stickyDiv (F.val (F.mag a) * 2 ^ (F.unit + 1)) (F.val (F.mag b))))

end Flt

namespace Emu
open CInt Flt

/-- `operator+`, `operator-` on floats (emu128-inl.h:595-611, 614-621). -/
def FAdd (F : Fmt) (N : Nat) (a b : List Int) : M (List Int) := fmap2 F N (fadd F) a b
def FSub (F : Fmt) (N : Nat) (a b : List Int) : M (List Int) := fmap2 F N (fsub F) a b
/-- `operator*` on floats (emu128-inl.h:801-808, 843-846). -/
def FMul (F : Fmt) (N : Nat) (a b : List Int) : M (List Int) := fmap2 F N (fmul F) a b
/-- `operator/` on floats (emu128-inl.h:848-854): a zero divisor gives the integer 0 converted. -/
def FDiv (F : Fmt) (N : Nat) (a b : List Int) : M (List Int) :=
  fmap2 F N (fun x y => if feq F y (ofInt F 0) then ofInt F 0 else fdiv F x y) a b
/-- `ApproximateReciprocal` (emu128-inl.h:927-936). -/
def ApproximateReciprocal (N : Nat) (v : List Int) : M (List Int) :=
  fmap1 f32 N (fun x => .ok (if feq f32 (scalarAbs f32 x) 0 then 0 else fdiv f32 f32.one x)) v
/-- `AbsDiff` on floats (emu128-inl.h:928-931). -/
def FAbsDiff (F : Fmt) (N : Nat) (a b : List Int) : M (List Int) := do FAbs F N (← FSub F N a b)
/-- `MulAdd`, `NegMulAdd`, `MulSub`, `NegMulSub` on floats (emu128-inl.h:935-957); not contracted to a fused
operation. -/
def FMulAdd (F : Fmt) (N : Nat) (mul x add : List Int) : M (List Int) := do FAdd F N (← FMul F N mul x) add
def FNegMulAdd (F : Fmt) (N : Nat) (mul x add : List Int) : M (List Int) := do FSub F N add (← FMul F N mul x)
def FMulSub (F : Fmt) (N : Nat) (mul x sub : List Int) : M (List Int) := do FSub F N (← FMul F N mul x) sub
def FNegMulSub (F : Fmt) (N : Nat) (mul x sub : List Int) : M (List Int) := do
  FSub F N (← FMul F N (← FNeg F N mul) x) sub

end Emu
end Hwy
