import Verif.Basic
import Mathlib.Data.BitVec
import Mathlib.Tactic.Linarith
import Mathlib.Tactic.Ring

/-!
# C++ integer arithmetic

The part of the C++ integer rules that the reference vector operations rely on: fixed-width two's
complement types, integral promotion to `int`, the usual arithmetic conversions, modular conversion
(`static_cast`), modular unsigned arithmetic, and undefined behaviour on signed overflow and on
out-of-range shift counts.  `int` has 32 bits, `int64_t`/`uint64_t`/`size_t` 64.

This is not a model of a file in `/repo` but of the language the modelled files are written in.
Simplifications: converting to a narrower signed type and shifting a negative value right are
implementation-defined before C++20; they are modelled as every supported compiler does them
(modular, arithmetic shift).
-/

namespace Hwy
namespace CInt

/-- A fixed-width integer type. -/
structure Ty where
  bits : Nat
  sgn : Bool
  deriving DecidableEq, Repr

def u8 : Ty := ⟨8, false⟩
def u16 : Ty := ⟨16, false⟩
def u32 : Ty := ⟨32, false⟩
def u64 : Ty := ⟨64, false⟩
def i8 : Ty := ⟨8, true⟩
def i16 : Ty := ⟨16, true⟩
def i32 : Ty := ⟨32, true⟩
def i64 : Ty := ⟨64, true⟩

/-- Smallest value (`LimitsMin<T>()`). -/
def Ty.lo (t : Ty) : Int := if t.sgn then -(2 ^ (t.bits - 1)) else 0

/-- Largest value (`LimitsMax<T>()`). -/
def Ty.hi (t : Ty) : Int := if t.sgn then 2 ^ (t.bits - 1) - 1 else 2 ^ t.bits - 1

/-- `x` is a value of type `t`. -/
def Ty.Has (t : Ty) (x : Int) : Prop := t.lo ≤ x ∧ x ≤ t.hi

instance (t : Ty) (x : Int) : Decidable (t.Has x) := by unfold Ty.Has; infer_instance

/-- The value of type `t` congruent to `x` modulo `2 ^ bits`. -/
def Ty.wrap (t : Ty) (x : Int) : Int :=
  if t.sgn then (x + 2 ^ (t.bits - 1)) % 2 ^ t.bits - 2 ^ (t.bits - 1) else x % 2 ^ t.bits

/-- A typed value. -/
structure Val where
  ty : Ty
  v : Int
  deriving DecidableEq, Repr

/-- `static_cast<t>(x)`. -/
def cast (t : Ty) (x : Val) : Val := ⟨t, t.wrap x.v⟩

/-- Integral promotion: types narrower than `int` become `int`. -/
def Ty.promote (t : Ty) : Ty := if t.bits < 32 then i32 else t

/-- Usual arithmetic conversions of two promoted types. -/
def Ty.commonP (a b : Ty) : Ty :=
  if a.bits = b.bits then ⟨a.bits, a.sgn && b.sgn⟩ else if a.bits < b.bits then b else a

def Ty.common (a b : Ty) : Ty := Ty.commonP a.promote b.promote

/-- Result of an arithmetic operation carried out in type `t`: signed overflow is undefined. -/
def arith (t : Ty) (x : Int) : M Val :=
  if t.sgn then (if t.Has x then .ok ⟨t, x⟩ else .error .ub) else .ok ⟨t, t.wrap x⟩

def add (a b : Val) : M Val :=
  let t := a.ty.common b.ty
  arith t (t.wrap a.v + t.wrap b.v)

def sub (a b : Val) : M Val :=
  let t := a.ty.common b.ty
  arith t (t.wrap a.v - t.wrap b.v)

def mul (a b : Val) : M Val :=
  let t := a.ty.common b.ty
  arith t (t.wrap a.v * t.wrap b.v)

/-- `/` (truncating): division by zero and `min / -1` are undefined. -/
def div (a b : Val) : M Val :=
  let t := a.ty.common b.ty
  if t.wrap b.v = 0 then .error .ub else arith t ((t.wrap a.v).tdiv (t.wrap b.v))

/-- `%`: undefined where `/` is. -/
def rem (a b : Val) : M Val :=
  let t := a.ty.common b.ty
  if t.wrap b.v = 0 then .error .ub
  else if t.sgn ∧ ¬ t.Has ((t.wrap a.v).tdiv (t.wrap b.v)) then .error .ub
  else .ok ⟨t, (t.wrap a.v).tmod (t.wrap b.v)⟩

/-- Unary minus. -/
def neg (a : Val) : M Val := arith a.ty.promote (- a.ty.promote.wrap a.v)

/-- Bits of a value, two's complement. -/
def Val.bv (t : Ty) (x : Int) : BitVec t.bits := BitVec.ofInt t.bits x

/-- Value of type `t` with the given bits. -/
def Ty.ofBits (t : Ty) (b : BitVec t.bits) : Int := if t.sgn then b.toInt else b.toNat

def bitOp (f : ∀ n, BitVec n → BitVec n → BitVec n) (a b : Val) : Val :=
  let t := a.ty.common b.ty
  ⟨t, t.ofBits (f t.bits (Val.bv t a.v) (Val.bv t b.v))⟩

def band (a b : Val) : Val := bitOp (fun _ => BitVec.and) a b
def bor (a b : Val) : Val := bitOp (fun _ => BitVec.or) a b
def bxor (a b : Val) : Val := bitOp (fun _ => BitVec.xor) a b

/-- `~a`: all bits of the promoted value inverted. -/
def bnot (a : Val) : Val := ⟨a.ty.promote, a.ty.promote.wrap (- a.ty.promote.wrap a.v - 1)⟩

/-- `a << n`: undefined for a count outside `[0, bits)`; for signed types also for a negative value
or an unrepresentable result. -/
def shl (a : Val) (n : Int) : M Val :=
  let t := a.ty.promote
  if n < 0 ∨ (t.bits : Int) ≤ n then .error .ub
  else if t.sgn ∧ a.v < 0 then .error .ub
  else arith t (t.wrap a.v * 2 ^ n.toNat)

/-- `a >> n`: undefined for a count outside `[0, bits)`; arithmetic for negative values. -/
def shr (a : Val) (n : Int) : M Val :=
  let t := a.ty.promote
  if n < 0 ∨ (t.bits : Int) ≤ n then .error .ub
  else .ok ⟨t, t.wrap a.v / 2 ^ n.toNat⟩

/-- Comparison in the common type. -/
def lt (a b : Val) : Bool :=
  let t := a.ty.common b.ty
  decide (t.wrap a.v < t.wrap b.v)

def eq (a b : Val) : Bool :=
  let t := a.ty.common b.ty
  decide (t.wrap a.v = t.wrap b.v)

/-- `HWY_MIN(a, b)` = `((a) < (b) ? (a) : (b))` (base.h:210); the result has the common type. -/
def cmin (a b : Val) : Val := cast (a.ty.common b.ty) (if lt a b then a else b)

/-- `HWY_MAX(a, b)` = `((a) > (b) ? (a) : (b))` (base.h:211). -/
def cmax (a b : Val) : Val := cast (a.ty.common b.ty) (if lt b a then a else b)

/-- `MakeUnsigned<T>`, `MakeSigned<T>`, `MakeWide<T>`, `MakeNarrow<T>` (base.h type traits). -/
def Ty.unsigned (t : Ty) : Ty := ⟨t.bits, false⟩
def Ty.signed (t : Ty) : Ty := ⟨t.bits, true⟩
def Ty.wide (t : Ty) : Ty := ⟨2 * t.bits, t.sgn⟩
def Ty.narrow (t : Ty) : Ty := ⟨t.bits / 2, t.sgn⟩

/-- The lane types of integer vectors. -/
def laneTys : List Ty := [u8, i8, u16, i16, u32, i32, u64, i64]

/-! ### Facts -/

theorem wrap_of_has {t : Ty} (hb : 0 < t.bits) {x : Int} (h : t.Has x) : t.wrap x = x := by
  obtain ⟨h1, h2⟩ := h
  unfold Ty.lo at h1
  unfold Ty.hi at h2
  unfold Ty.wrap
  have e : (2 : Int) ^ t.bits = 2 * 2 ^ (t.bits - 1) := by
    rw [← pow_succ']; congr 1; omega
  split_ifs at h1 h2 ⊢ with hs
  · rw [Int.emod_eq_of_lt (by omega) (by omega)]; omega
  · rw [Int.emod_eq_of_lt (by omega) (by omega)]

theorem has_wrap (t : Ty) (hb : 0 < t.bits) (x : Int) : t.Has (t.wrap x) := by
  have e : (2 : Int) ^ t.bits = 2 * 2 ^ (t.bits - 1) := by
    rw [← pow_succ']; congr 1; omega
  have p : (0 : Int) < 2 ^ (t.bits - 1) := by positivity
  have p2 : (0 : Int) < 2 ^ t.bits := by positivity
  unfold Ty.Has Ty.lo Ty.hi Ty.wrap
  split_ifs with hs
  · have := Int.emod_nonneg (x + 2 ^ (t.bits - 1)) (ne_of_gt p2)
    have := Int.emod_lt_of_pos (x + 2 ^ (t.bits - 1)) p2
    omega
  · have := Int.emod_nonneg x (ne_of_gt p2)
    have := Int.emod_lt_of_pos x p2
    omega

end CInt
end Hwy
