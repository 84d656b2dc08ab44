import Verif.EmuFArith
import Verif.EmuArith
import Verif.EmuMove
import Verif.EmuConv

/-!
# Model of integer division (`Div`, `Mod`) of `hwy/ops/generic_ops-inl.h`

Running on the reference target's operations (`HWY_HAVE_FLOAT64` = 1, `HWY_HAVE_FLOAT16` = 0, `HWY_MAX_BYTES` =
16, `HWY_TARGET <= HWY_SSE2` false).  `t` is the lane type, `N` the number of lanes.  A vector of `N` lanes of
`k` bytes has `N * k` bytes, which selects the overload.
-/

namespace Hwy
namespace Emu
open CInt Flt

/-- `MakeWide<T>`. -/
def wide (t : Ty) : Ty := ⟨2 * t.bits, t.sgn⟩

/-- `DemoteTo` between integers: the overload depends on the signedness of the source. -/
def DemoteTo (tF tT : Ty) (N : Nat) (v : List Int) : M (List Int) :=
  if tF.sgn then DemoteS tF tT N v else DemoteU tF tT N v
/-- `OrderedDemote2To`; `NW` lanes per input. -/
def OrderedDemote2To (tF tT : Ty) (NW : Nat) (a b : List Int) : M (List Int) :=
  if tF.sgn then OrderedDemote2S tF tT NW a b else OrderedDemote2U tF tT NW a b

/-- `PromoteLowerTo`, `PromoteUpperTo` (generic_ops-inl.h:3333-3363); `H` is the number of lanes of the result. -/
def PromoteLowerTo (tF tT : Ty) (H : Nat) (v : List Int) : M (List Int) := do
  PromoteInt tF tT H (← LowerHalf 0 (cap tF) H v)
def PromoteUpperTo (tF tT : Ty) (H : Nat) (v : List Int) : M (List Int) := do
  PromoteInt tF tT H (← UpperHalf 0 (cap tF) H v)

/-- `NegMulAdd`, `MulSub` of integers (generic_ops-inl.h:4663-4671); `MulAdd` is in `EmuConv.lean`. -/
def NegMulAdd (t : Ty) (N : Nat) (mul x add : List Int) : M (List Int) := do Sub t N add (← Mul t N mul x)
def MulSub (t : Ty) (N : Nat) (mul x sub : List Int) : M (List Int) := do Sub t N (← Mul t N mul x) sub

/-- `IfNegativeThenNegOrUndefIfZero` (generic_ops-inl.h:811-827). -/
def IfNegativeThenNegOrUndefIfZero (t : Ty) (N : Nat) (mask v : List Int) : M (List Int) := do
  IfNegativeThenElse t N mask (← Neg t N v) v

/-- `detail::IntDivUsingFloatDiv` of lanes wider than the original ones (generic_ops-inl.h:4908-4996, the `#else`
branch); used with 32-bit lanes. -/
def IntDivUsingFloatDiv (t : Ty) (N : Nat) (a b : List Int) : M (List Int) := do
  ConvertInRangeF2I f32 t N (← FDiv f32 N (← ConvertI2F f32 N a) (← ConvertI2F f32 N b))

/-- `detail::IntDivUsingFloatDiv` of lanes of the original size (generic_ops-inl.h:4998-5134); used with 64-bit
lanes. -/
def IntDivUsingFloatDiv64 (t : Ty) (N : Nat) (a b : List Int) : M (List Int) := do
  let di := i64
  let du := u64
  let (a, b) ← (if t.sgn then pure (a, b) else do
    let one ← Set di N 1
    let a' := BitCast di t (← IfNegativeThenElse di N (BitCast t di b)
      (← IfThenElseZero di N (← Ge t N a b) one) (BitCast t di a))
    let b' := BitCast di t (← IfNegativeThenElse di N (BitCast t di b) one (BitCast t di b))
    pure (a', b'))
  let fltB ← ConvertI2F f64 N b
  let fltRecipB ← FDiv f64 N (← Set u64 N f64.one) fltB
  let q0 ← ConvertInRangeF2I f64 t N (← FMul f64 N (← ConvertI2F f64 N a) fltRecipB)
  let r0 := BitCast t di (← NegMulAdd t N q0 b a)
  let q1 ← ConvertInRangeF2I f64 di N (← FMul f64 N (← ConvertI2F f64 N r0) fltRecipB)
  let r1 ← NegMulAdd di N q1 (BitCast t di b) r0
  let r3 := r1
  let r4 ← (if t.sgn then IfNegativeThenNegOrUndefIfZero di N (BitCast t di a) r3 else pure r3)
  let absB ← (if t.sgn then do pure (BitCast di du (← Abs di N (BitCast t di b))) else pure (BitCast t du b))
  let q4 := BitCast du di (vecFromMask du (← Ge du N (BitCast di du r4) absB))
  let q4NegateMask ← (if t.sgn then Xor di N r3 (BitCast t di b) else pure r3)
  let q4 ← IfNegativeThenElse di N q4NegateMask (← Neg di N q4) q4
  Sub t N (← Add t N q0 (BitCast di t q1)) (BitCast di t q4)

/-- `detail::IntDiv` of 16-bit lanes (generic_ops-inl.h:5136-5171, 5173-5205). -/
def IntDiv16 (t : Ty) (N : Nat) (a b : List Int) : M (List Int) :=
  if N ≤ 4 then do
    DemoteTo (wide t) t N (← IntDivUsingFloatDiv (wide t) N (← PromoteInt t (wide t) N a) (← PromoteInt t (wide t) N b))
  else do
    let lo ← IntDivUsingFloatDiv (wide t) (N / 2) (← PromoteLowerTo t (wide t) (N / 2) a)
      (← PromoteLowerTo t (wide t) (N / 2) b)
    let hi ← IntDivUsingFloatDiv (wide t) (N / 2) (← PromoteUpperTo t (wide t) (N / 2) a)
      (← PromoteUpperTo t (wide t) (N / 2) b)
    OrderedDemote2To (wide t) t (N / 2) lo hi

/-- `detail::IntDiv` of 8-bit lanes (generic_ops-inl.h:5136-5171, 5208-5226, 5227-5243). -/
def IntDiv8 (t : Ty) (N : Nat) (a b : List Int) : M (List Int) :=
  if N ≤ 4 then do
    let w := wide (wide t)
    DemoteTo w t N (← IntDivUsingFloatDiv w N (← PromoteInt t w N a) (← PromoteInt t w N b))
  else if N ≤ 8 then do
    DemoteTo (wide t) t N (← IntDiv16 (wide t) N (← PromoteInt t (wide t) N a) (← PromoteInt t (wide t) N b))
  else do
    let lo ← IntDiv16 (wide t) (N / 2) (← PromoteLowerTo t (wide t) (N / 2) a) (← PromoteLowerTo t (wide t) (N / 2) b)
    let hi ← IntDiv16 (wide t) (N / 2) (← PromoteUpperTo t (wide t) (N / 2) a) (← PromoteUpperTo t (wide t) (N / 2) b)
    OrderedDemote2To (wide t) t (N / 2) lo hi

/-- `detail::IntDiv` of 32-bit lanes (generic_ops-inl.h:5253-5267, 5268-5285). -/
def IntDiv32 (t : Ty) (N : Nat) (a b : List Int) : M (List Int) :=
  if N ≤ 2 then do
    ConvertInRangeF2I f64 t N (← FDiv f64 N (← ConvertI2F f64 N a) (← ConvertI2F f64 N b))
  else do
    let H := N / 2
    let div1 ← FDiv f64 H (← ConvertI2F f64 H (← UpperHalf 0 (cap t) H a)) (← ConvertI2F f64 H (← UpperHalf 0 (cap t) H b))
    let div0 ← FDiv f64 H (← ConvertI2F f64 H (← LowerHalf 0 (cap t) H a)) (← ConvertI2F f64 H (← LowerHalf 0 (cap t) H b))
    Combine 0 (cap t) H (← ConvertInRangeF2I f64 t H div1) (← ConvertInRangeF2I f64 t H div0)

/-- `Div`, `operator/` of integers (generic_ops-inl.h:5334-5337) and `detail::IntDiv` (also 5246-5250). -/
def IntDiv (t : Ty) (N : Nat) (a b : List Int) : M (List Int) :=
  if t.bits = 8 then IntDiv8 t N a b else if t.bits = 16 then IntDiv16 t N a b
  else if t.bits = 32 then IntDiv32 t N a b else IntDivUsingFloatDiv64 t N a b

/-- `Mod`, `operator%` (generic_ops-inl.h:5339-5342), `detail::IntMod` (generic_ops-inl.h:5288-5297). -/
def IntMod (t : Ty) (N : Nat) (a b : List Int) : M (List Int) := do
  NegMulAdd t N (← IntDiv t N a b) b a

end Emu
end Hwy
