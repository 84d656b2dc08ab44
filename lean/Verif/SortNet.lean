import Verif.Basic

/-!
# Sorting networks: key-level semantics of the operations used in sorting_networks-inl.h

A vector is a function from lane index to key; a network state is a function from row (`v0`..`vf`) to
vector. One "lane" is one key; for 128-bit keys that is a pair of u64 lanes (traits128-inl.h).
`F`, `L` are `First`, `Last` (traits-inl.h:300-308): of two keys the one that comes first / last.
-/

namespace Hwy
namespace VQ
namespace Net

/-- Statements of the network functions. -/
inductive Op
  /-- `st.Sort2(d, va, vb)`. -/
  | sort2 (a b : Nat)
  /-- `v = st.ReverseKeysK(d, v)`. -/
  | reverseKeys (k r : Nat)
  /-- `v = st.SortPairsDistanceK(d, v)`. -/
  | sortPairsDistance (k r : Nat)
  /-- `v = st.SortPairsReverseK(d, v)`. -/
  | sortPairsReverse (k r : Nat)
  deriving DecidableEq

variable {α : Type}

abbrev Lanes (α : Type) := Nat → α
abbrev State (α : Type) := Nat → Lanes α

/-- `ReverseKeys2/4/8/16` (traits-inl.h:207-232, traits128-inl.h:66-84): reverses groups of `k` keys; `k` is a
power of two, so key `i` comes from `i ^ (k - 1)`. -/
def reverseKeys (k : Nat) (v : Lanes α) : Lanes α := fun i => v (i ^^^ (k - 1))

/-- `SwapAdjacentKeys/Pairs/Quads` (ReverseKeys2, traits-inl.h:240-267): key `i` comes from `i ^ k`. -/
def swapAdjacent (k : Nat) (v : Lanes α) : Lanes α := fun i => v (i ^^^ k)

/-- `OddEvenKeys/Pairs/Quads`, `ConcatUpperLower` (traits-inl.h:235-298): keys whose index has bit `j` come from
`odd`, others from `even`. -/
def oddEven (j : Nat) (odd even : Lanes α) : Lanes α := fun i => if i.testBit j then odd i else even i

/-- `Sort2` on vectors (traits-inl.h:536-552, traits128-inl.h:481-488). -/
def sort2Vec (F L : α → α → α) (a b : Lanes α) : Lanes α × Lanes α :=
  (fun i => F (a i) (b i), fun i => L (a i) (b i))

/-- `SortPairsDistance1/2/4` (traits-inl.h:556-577, 589-597; sorting_networks-inl.h:48-53). -/
def sortPairsDistance (F L : α → α → α) (k : Nat) (v : Lanes α) : Lanes α :=
  let swapped := swapAdjacent k v
  let r := sort2Vec F L v swapped
  oddEven (Nat.log2 k) r.2 r.1

/-- `SortPairsReverse4/8/16` (traits-inl.h:580-586; sorting_networks-inl.h:57-73). -/
def sortPairsReverse (F L : α → α → α) (k : Nat) (v : Lanes α) : Lanes α :=
  let swapped := reverseKeys k v
  let r := sort2Vec F L v swapped
  oddEven (Nat.log2 k - 1) r.2 r.1

/-- Replace row `x`. -/
def setRow (s : State α) (x : Nat) (v : Lanes α) : State α := fun r => if r = x then v else s r

/-- One statement. -/
def step (F L : α → α → α) (s : State α) : Op → State α
  | .sort2 a b =>
    let r := sort2Vec F L (s a) (s b)
    setRow (setRow s a r.1) b r.2
  | .reverseKeys k x => setRow s x (reverseKeys k (s x))
  | .sortPairsDistance k x => setRow s x (sortPairsDistance F L k (s x))
  | .sortPairsReverse k x => setRow s x (sortPairsReverse F L k (s x))

/-- A straight-line function. -/
def run (F L : α → α → α) (ops : List Op) (s : State α) : State α := ops.foldl (step F L) s

/-- `Sort2` as a conditional swap on keys (traits128-inl.h:481-488 and the 64-bit branch of traits-inl.h:541-549;
for keys that are totally ordered bit patterns `Min`/`Max` give the same). -/
def first (lt : α → α → Bool) (a b : α) : α := if lt a b then a else b
def last (lt : α → α → Bool) (a b : α) : α := if lt a b then b else a

end Net
end VQ
end Hwy
