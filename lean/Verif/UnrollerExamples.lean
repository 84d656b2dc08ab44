import Verif.UnrollerSpec3

/-!
# C61: examples

Two lanes; 11 elements: one round of four vectors, one single vector, and a masked remainder.
-/

namespace Hwy
namespace Unroll
open Vec

def exX : List Int := [5, -2, 7, 1, 9, 4, 4, -8, 3, 6, 10]

/-- `y[k] = 2 * x[k] + k`. -/
def exFunc : Int → List Int → List Int → List Int := fun idx x _ => mapFrom (fun k a => 2 * a + k) idx x

theorem exFunc_lane (L : Nat) : LaneWise id L (fun k a => 2 * a + k) exFunc := fun _ _ _ _ => rfl

/-- The hypotheses of `C61_elementwise` are met, with and without faulting masked accesses. -/
example : unroller1 true (defaultFns true 2 0 exFunc) (maskLoadImpl true 2 0) 2 2 0 [77, 77] [88, 88] exX
      (List.replicate 12 99) 11 = .ok (mapFrom (fun k a => 2 * a + k) 0 exX ++ [99]) := by
  rw [C61_elementwise true (by decide) (by simp) (exFunc_lane 2) 0 (by rfl) (by rfl) (by decide) (by decide)]
  rfl

example : unroller1 false (defaultFns false 2 0 exFunc) (maskLoadImpl false 2 0) 8 2 0 (List.replicate 8 77)
      (List.replicate 8 88) exX (List.replicate 12 99) 11 = .ok (mapFrom (fun k a => 2 * a + k) 0 exX ++ [99]) := by
  rw [C61_elementwise false (by decide) (fun h => absurd h (by decide)) (exFunc_lane 2) 0 (by rfl) (by rfl) (by decide) (by decide)]
  rfl

/-- The values, by evaluation of the model. -/
example : unroller1 true (defaultFns true 2 0 exFunc) (maskLoadImpl true 2 0) 2 2 0 [77, 77] [88, 88] exX
      (List.replicate 12 99) 11 = .ok [10, -3, 16, 5, 22, 13, 14, -9, 14, 21, 30, 99] := by decide +kernel

/-- A short array. -/
example : unroller1 true (defaultFns true 4 0 exFunc) (maskLoadImpl true 4 0) 4 4 0 (List.replicate 4 77)
      (List.replicate 4 88) exX (List.replicate 4 99) 3 = .ok [10, -3, 16, 99] := by decide +kernel

example : unroller2 true (defaultFns true 2 0 fun _ x _ => (view2 x).map fun a => a.1 - a.2) (maskLoadImpl true 2 0)
      (maskLoadImpl true 2 0) 2 2 0 [77, 77] [77, 77] [88, 88] exX exX (List.replicate 12 99) 11
      = .ok (mapFrom (fun _ a => a.1 - a.2) 0 (exX.zip exX) ++ [99]) := by
  rw [C61_elementwise2 true (by decide) (by simp) (g := fun _ a => a.1 - a.2)
    (by intro _ x _ _; unfold mapFrom; apply List.ext_getElem <;> simp) 0 0 (by rfl) (by rfl) (by rfl) (by decide) (by decide) (by decide)]
  rfl

/-- The sum of all elements. -/
example : unroller1 true (reducer (· + ·) 0 id id 2) (maskLoadImpl true 2 0) 2 2 0 [77, 77] [88, 88] exX [99, 98] 11
      = .ok [(exX.take 11 |>.map id).foldr (· + ·) 0, 98] := by
  rw [C61_reduce (op := ((· + ·) : Int → Int → Int)) (by simp) true (by decide) (by simp) (by rfl) (by rfl) (by rfl) (by decide) (by decide)]
  rfl

example : unroller1 true (reducer (· + ·) 0 id id 2) (maskLoadImpl true 2 0) 2 2 0 [77, 77] [88, 88] exX [99, 98] 11
      = .ok [39, 98] := by decide +kernel

/-- The minimum of values that are at most 127: masked-off lanes are 127. -/
example : unroller1 false (reducer min 127 (fun a => min a 127) id 2) (maskLoadImpl false 2 (127 : Nat)) 8 2 0
      (List.replicate 8 77) (List.replicate 8 88) [5, 3, 9, 4, 7] [99, 98] 5 = .ok [3, 98] := by decide +kernel

/-- Bitwise or over natural numbers. -/
example (x : List Nat) : unroller1 false (reducer (· ||| ·) 0 id id 4) (maskLoadImpl false 4 0) 4 4 0 [1, 2, 3, 4] [1, 2, 3, 4] x
      [99] x.length = .ok [(x.take x.length |>.map id).foldr (· ||| ·) 0] := by
  rw [C61_reduce (op := ((· ||| ·) : Nat → Nat → Nat)) (by simp) false (by decide) (by simp) (by rfl) (by rfl) (by rfl) (by simp) (by decide)]
  rfl

/-- A dot product. -/
example : unroller2 true (reducer (· + ·) 0 (fun a => a.1 * a.2) view2 2) (maskLoadImpl true 2 0) (maskLoadImpl true 2 0) 2 2 0
      [77, 77] [77, 77] [88, 88] exX exX [99, 98] 11
      = .ok [((exX.zip exX).take 11 |>.map fun a => a.1 * a.2).foldr (· + ·) 0, 98] := by
  rw [C61_reduce2 (op := ((· + ·) : Int → Int → Int)) (by simp) true (by decide) (by simp) (by rfl) (by rfl) (by rfl) (by rfl) (by decide)
    (by decide) (by decide)]
  rfl

example : unroller2 true (reducer (· + ·) 0 (fun a => a.1 * a.2) view2 2) (maskLoadImpl true 2 0) (maskLoadImpl true 2 0) 2 2 0
      [77, 77] [77, 77] [88, 88] exX exX [99, 98] 11 = .ok [401, 98] := by decide +kernel

/-- The conversion of an index to `int8_t`. -/
def exW (k : Int) : Int := (k + 128) % 256 - 128

/-- The first 4; the second is in the same group of four vectors. -/
example : unroller1 true (finder (· == 4) exW 2) (maskLoadImpl true 2 0) 2 2 0 [77, 77] [88, 88] exX [99, 98] 11
      = .ok [(5 : Int), 98] := by
  rw [C61_find true (by decide) (by simp) (.inl rfl) (by intro k hk; unfold exW; omega) (by rfl) (by rfl) (by rfl) (by decide) (by decide)]
  rfl

/-- In the remainder, and none. -/
example : unroller1 true (finder (· == 10) exW 2) (maskLoadImpl true 2 0) 2 2 0 [77, 77] [88, 88] exX [99, 98] 11
      = .ok [10, 98] := by decide +kernel
example : unroller1 true (finder (· == 11) exW 2) (maskLoadImpl true 2 0) 2 2 0 [77, 77] [88, 88] exX [99, 98] 11
      = .ok [-1, 98] := by decide +kernel

/-- With no elements, nothing is written if masked accesses cannot fault. -/
example : unroller1 false (finder (· == 4) exW 2) (maskLoadImpl false 2 0) 2 2 0 [77, 77] [88, 88] exX [99, 98] 0
      = .ok [99, 98] := by decide +kernel

end Unroll
end Hwy
