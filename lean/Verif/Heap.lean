import Verif.Basic

/-!
# Model of `HeapSort`, `HeapSelect`, `HeapPartialSort` (hwy/contrib/sort/vqsort-inl.h)

Arrays are lists of keys. The source counts in lanes of type `T`, with `N1 = LanesPerKey()` lanes per key;
every index it computes is a multiple of `N1`, so the model counts keys (simplification). `lt a b` is
`AllTrue(st.Compare(a, b))` for keys `a`, `b`. Any access outside the list is `.error .ub`.
-/

namespace Hwy
namespace VQ

variable {α : Type}

/-- `st.Swap(a + i, a + j)` (traits-inl.h:159-163, traits128-inl.h:49-54). -/
def swapAt (a : List α) (i j : Nat) : M (List α) := do
  let x ← readAt a i
  let y ← readAt a j
  let a ← writeAt a i y
  writeAt a j x

/-- The choice of `idx_larger` in `SiftDown` (vqsort-inl.h:140-149). -/
def largerChild (lt : α → α → Bool) (n start : Nat) (a : List α) : M Nat := do
  let left := 2 * start + 1
  let right := 2 * start + 2
  let keyJ ← readAt a start
  let keyL ← readAt a left
  let larger := if lt keyJ keyL then left else start
  if right < n then do
    let keyG ← readAt a larger
    let keyR ← readAt a right
    pure (if lt keyG keyR then right else larger)
  else pure larger

/-- `SiftDown` (vqsort-inl.h:131-154). Running out of fuel is `.abort`; the theorems show it does not happen. -/
def siftDownLoop (lt : α → α → Bool) (n : Nat) : Nat → Nat → List α → M (List α)
  | 0, _, _ => .error .abort
  | fuel + 1, start, a =>
    if start < n then
      if 2 * start + 1 ≥ n then .ok a
      else do
        let larger ← largerChild lt n start a
        if larger = start then .ok a
        else do
          let a ← swapAt a start larger
          siftDownLoop lt n fuel larger a
    else .ok a

def siftDown (lt : α → α → Bool) (a : List α) (n start : Nat) : M (List α) :=
  siftDownLoop lt n (n + 1) start a

/-- The loop `for (i = top; i != -1; --i) SiftDown(lanes, n, i)` (vqsort-inl.h:166-168, 203-205). -/
def buildHeap (lt : α → α → Bool) (n : Nat) : Nat → List α → M (List α)
  | 0, a => siftDown lt a n 0
  | i + 1, a => do
    let a ← siftDown lt a n (i + 1)
    buildHeap lt n i a

/-- The loop `for (i = top; i != 0; --i) { Swap(0, i); SiftDown(lanes, i, 0); }` (vqsort-inl.h:170-188). -/
def popHeap (lt : α → α → Bool) : Nat → List α → M (List α)
  | 0, a => .ok a
  | i + 1, a => do
    let a ← swapAt a 0 (i + 1)
    let a ← siftDown lt a (i + 1) 0
    popHeap lt i a

/-- `size_t` subtraction of one. -/
def dec64 (n : Nat) : Nat := (n + 2 ^ 64 - 1) % 2 ^ 64

/-- `HeapSort` (vqsort-inl.h:158-189); `num` keys. -/
def heapSort (lt : α → α → Bool) (a : List α) (num : Nat) : M (List α) :=
  if num = 1 then .ok a
  else do
    let a ← buildHeap lt num (dec64 num / 2) a
    popHeap lt (dec64 num) a

/-- The second loop of `HeapSelect` (vqsort-inl.h:207-229), `for (i = k; i <= num - 1; ++i)`; `todo` is the
number of remaining iterations. -/
def selectLoop (lt : α → α → Bool) (k : Nat) : Nat → Nat → List α → M (List α)
  | 0, _, a => .ok a
  | todo + 1, i, a => do
    let x ← readAt a i
    let r ← readAt a 0
    let a ← if lt x r then do
        let a ← swapAt a 0 i
        siftDown lt a k 0
      else .ok a
    selectLoop lt k todo (i + 1) a

/-- `HeapSelect` (vqsort-inl.h:192-232); `num >= 1` (the loop bound `num - N1` wraps otherwise). -/
def heapSelect (lt : α → α → Bool) (a : List α) (num kKeys : Nat) : M (List α) :=
  let k := kKeys + 1
  if num = 1 then .ok a
  else do
    let a ← buildHeap lt k ((k - 1) / 2) a
    let a ← selectLoop lt k (num - k) k a
    swapAt a 0 (k - 1)

/-- `HeapPartialSort` (vqsort-inl.h:232-237). -/
def heapPartialSort (lt : α → α → Bool) (a : List α) (num kKeys : Nat) : M (List α) := do
  let a ← heapSelect lt a num kKeys
  heapSort lt a kKeys

end VQ
end Hwy
