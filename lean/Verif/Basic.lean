/-!
# Common vocabulary

`Fault` lists the ways a modelled C++ function can fail to return normally.  A model function
whose C++ source can run into undefined behaviour (out-of-bounds access, shift by the word
size, reading an uninitialised slot, ...) or can call `HWY_ABORT` returns `Except Fault α`.
A theorem that says `f x = .ok y` therefore also says that neither happens.
-/

namespace Hwy

/-- Abnormal outcomes of modelled code. `ub`: undefined behaviour in C++ (or a violated
`HWY_DASSERT` precondition); `abort`: `HWY_ABORT`/`HWY_ASSERT` fires. -/
inductive Fault
  | ub
  | abort
  deriving DecidableEq, Repr

/-- Result of modelled code. -/
abbrev M (α : Type) := Except Fault α

/-- `a[i]`; undefined behaviour out of bounds. -/
def readAt {α : Type} (a : List α) (i : Nat) : M α :=
  match a[i]? with
  | some x => .ok x
  | none => .error .ub

/-- `a[i] = x`; undefined behaviour out of bounds. -/
def writeAt {α : Type} (a : List α) (i : Nat) (x : α) : M (List α) :=
  if i < a.length then .ok (a.set i x) else .error .ub

theorem readAt_of_lt {α : Type} {a : List α} {i : Nat} (h : i < a.length) :
    readAt a i = .ok a[i] := by
  simp [readAt, h]

theorem writeAt_of_lt {α : Type} {a : List α} {i : Nat} (x : α) (h : i < a.length) :
    writeAt a i x = .ok (a.set i x) := by
  simp [writeAt, h]

theorem readAt_of_ge {α : Type} {a : List α} {i : Nat} (h : a.length ≤ i) :
    readAt a i = .error .ub := by
  simp [readAt, h]

theorem writeAt_of_ge {α : Type} {a : List α} {i : Nat} (x : α) (h : a.length ≤ i) :
    writeAt a i x = .error .ub := by
  simp [writeAt, Nat.not_lt.mpr h]

end Hwy
