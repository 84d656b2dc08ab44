import Verif.VecOps

/-!
# Model of `hwy/contrib/unroller/unroller-inl.h`

Vectors and arrays as in `VecOps.lean`.  `L` is `ActualLanes()`, the number of lanes of the larger of the element types; all
vectors have that many lanes.  `ptrdiff_t` values are integers without overflow: the arrays fit in memory.  `n` is a natural
number: the array size.  `mf` is `HWY_MEM_OPS_MIGHT_FAULT`: if set, masked loads and stores touch every lane.  `x` and `y` do
not overlap (`HWY_RESTRICT`).  The vectors from `X0Init`, `X1Init` are overwritten before their first use and are left out.
-/

namespace Hwy
namespace Unroll
open Vec

variable {α α' β X : Type}

/-- The functions of a unit that `Unroller` calls through `me()` (unroller-inl.h:54-139, 162-286), `X` the input vectors.
`store` is `StoreAndShortCircuit`, `reduce` and `reduce4` the two overloads of `Reduce`; the latter returns the new `*y`. -/
structure Fns (X β : Type) where
  func : Int → X → List β → List β
  yInit : List β
  store : Nat → List β → List β → M (List β × Bool)
  maskStore : Int → List β → List β → Int → M (List β × Int)
  reduce : List β → List β → M (List β × Int)
  reduce4 : List β → List β → List β → List β → List β

/-! ### Default implementations -/

/-- The mask of `MaskLoadImpl` and `MaskStoreImpl` (unroller-inl.h:85-90, 110-116, 213-218, 229-234, 255-261).  The mask that
is not selected is not computed here. -/
def placesMask (L : Nat) (places : Int) : List Bool :=
  if places < 0 then (firstN L (places + L).toNat).map (!·) else firstN L places.toNat

/-- `MaskedLoadOr(no, mask, d, from + base)`, every lane of `no` being `fill` (emu128-inl.h:1387-1397; `MaskedLoad` for
`fill` zero): all lanes must be accessible if the access might fault. -/
def maskedLoadOr (mf : Bool) (fill : α) (mask : List Bool) (a : List α) (base : Int) : M (List α) :=
  if mf && !decide (0 ≤ base ∧ base + mask.length ≤ a.length) then .error .ub else maskedLoad fill mask a base

/-- One lane after the other of `BlendedStore` (emu128-inl.h:1448-1454). -/
def blendedLoop (base : Int) : List (β × Bool) → Nat → List β → M (List β)
  | [], _, a => .ok a
  | (v, m) :: l, i, a =>
    if m then do
      let a ← (if 0 ≤ base + i then writeAt a (base + i).toNat v else .error .ub)
      blendedLoop base l (i + 1) a
    else blendedLoop base l (i + 1) a

/-- `BlendedStore(v, mask, d, to + base)` (emu128-inl.h:1448-1454); as `maskedLoadOr`. -/
def blendedStore (mf : Bool) (v : List β) (mask : List Bool) (a : List β) (base : Int) : M (List β) :=
  if mf && !decide (0 ≤ base ∧ base + mask.length ≤ a.length) then .error .ub else blendedLoop base (v.zip mask) 0 a

/-- `MaskLoadImpl`, `MaskLoad0Impl`, `MaskLoad1Impl` (unroller-inl.h:85-94, 213-222, 229-238). -/
def maskLoadImpl (mf : Bool) (L : Nat) (fill : α) (src : List α) (idx places : Int) : M (List α) :=
  maskedLoadOr mf fill (placesMask L places) src idx

/-- `StoreAndShortCircuitImpl` (unroller-inl.h:100-103, 245-248). -/
def storeImpl (idx : Nat) (to v : List β) : M (List β × Bool) := do
  let to ← storeU v to idx
  return (to, true)

/-- `MaskStoreImpl` (unroller-inl.h:110-120, 255-265). -/
def maskStoreImpl (mf : Bool) (L : Nat) (idx : Int) (to v : List β) (places : Int) : M (List β × Int) := do
  let to ← blendedStore mf v (placesMask L places) to idx
  return (to, (places.natAbs : Int))

/-- A unit with the default stores and reductions (unroller-inl.h:62-64, 100-139): only `Func` is given. -/
def defaultFns (mf : Bool) (L : Nat) (zero : β) (func : Int → X → List β → List β) : Fns X β where
  func := func
  yInit := List.replicate L zero
  store := storeImpl
  maskStore := maskStoreImpl mf L
  reduce := fun _ to => .ok (to, 0)
  reduce4 := fun _ _ _ y => y

/-! ### `Unroller` -/

/-- The loop over four vectors (unroller-inl.h:327-350, 419-446): `inl` after a short circuit. -/
def loop4 (f : Fns X β) (load : Nat → M X) (L n : Nat) :
    Nat → Nat → List β → List β → List β → List β → List β → M (List β ⊕ (Nat × List β × List β × List β × List β × List β))
  | 0, _, _, _, _, _, _ => .error .abort
  | fuel + 1, i, y, yy, yy1, yy2, yy3 =>
    if (i : Int) + 4 * L - 1 < n then do
      let xx ← load i
      let xx1 ← load (i + L)
      let xx2 ← load (i + L + L)
      let xx3 ← load (i + L + L + L)
      let yy := f.func i xx yy
      let yy1 := f.func ((i : Int) + L) xx1 yy1
      let yy2 := f.func ((i : Int) + 2 * L) xx2 yy2
      let yy3 := f.func ((i : Int) + 3 * L) xx3 yy3
      let (y, c) ← f.store i y yy
      if !c then return .inl y
      let (y, c) ← f.store (i + L) y yy1
      if !c then return .inl y
      let (y, c) ← f.store (i + L + L) y yy2
      if !c then return .inl y
      let (y, c) ← f.store (i + L + L + L) y yy3
      if !c then return .inl y
      loop4 f load L n fuel (i + L + L + L + L) y yy yy1 yy2 yy3
    else .ok (.inr (i, y, yy, yy1, yy2, yy3))

/-- The loop over single vectors (unroller-inl.h:355-360, 451-457). -/
def loop1 (f : Fns X β) (load : Nat → M X) (L n : Nat) :
    Nat → Nat → List β → List β → M (List β ⊕ (Nat × List β × List β))
  | 0, _, _, _ => .error .abort
  | fuel + 1, i, y, yy =>
    if (i : Int) + L - 1 < n then do
      let xx ← load i
      let yy := f.func i xx yy
      let (y, c) ← f.store i y yy
      if !c then return .inl y
      loop1 f load L n fuel (i + L) y yy
    else .ok (.inr (i, y, yy))

/-- The remainder and the final reduction (unroller-inl.h:362-368, 459-466). -/
def finish (f : Fns X β) (maskLoad : Int → Int → M X) (L n : Nat) (i : Nat) (y yy : List β) : M (List β) := do
  let (y, yy) ←
    if i ≠ n then do
      let xx ← maskLoad ((n : Int) - L) ((i : Int) - n)
      let yy := f.func ((n : Int) - L) xx yy
      let (y, _) ← f.maskStore ((n : Int) - L) y yy ((i : Int) - n)
      pure (y, yy)
    else pure (y, yy)
  let (y, _) ← f.reduce yy y
  return y

/-- The part for arrays of at least one vector (unroller-inl.h:317-368, 408-466). -/
def large (f : Fns X β) (load : Nat → M X) (maskLoad : Int → Int → M X) (L n : Nat) (y : List β) : M (List β) := do
  let s ←
    if n > 4 * L then do
      match ← loop4 f load L n (n + 1) 0 y f.yInit f.yInit f.yInit f.yInit with
      | .inl y => pure (.inl y)
      | .inr (i, y, yy, yy1, yy2, yy3) => pure (.inr (i, y, f.reduce4 yy3 yy2 yy1 yy))
    else pure (Sum.inr (0, y, f.yInit))
  match s with
  | .inl y => return y
  | .inr (i, y, yy) =>
    match ← loop1 f load L n (n + 1) i y yy with
    | .inl y => return y
    | .inr (i, y, yy) => finish f maskLoad L n i y yy

/-- The part for short arrays (unroller-inl.h:299-313, 385-404) after the inputs were copied and loaded into `xx`: `tmp` has
`laneSz` elements, `y` gets the first `i`. -/
def small (f : Fns X β) (laneSz L n : Nat) (zero : β) (tmp0 : List β) (xx : X) (y : List β) : M (List β) := do
  if tmp0.length ≠ laneSz then .error .ub
  let yy := f.func 0 xx f.yInit
  let ytmp ← storeU (List.replicate L zero) tmp0 0
  let (ytmp, k) ← f.maskStore 0 ytmp yy n
  let (ytmp, k') ← f.reduce yy ytmp
  let v ← loadU (k + k').toNat ytmp 0
  storeU v y 0

/-- `Unroller` with one input array (unroller-inl.h:288-369).  `maxL` is `MaxUnitLanes()`; `xtmp`, `ytmp` are the initial
contents of the uninitialised local arrays. -/
def unroller1 (mf : Bool) (f : Fns (List α) β) (maskLoad : List α → Int → Int → M (List α)) (maxL L : Nat) (zero : β)
    (xtmp : List α) (ytmp : List β) (x : List α) (y : List β) (n : Nat) : M (List β) := do
  if mf && decide (n < maxL) then
    let c ← loadU n x 0
    let xtmp ← storeU c xtmp 0
    let xx ← maskLoad xtmp 0 n
    small f maxL L n zero ytmp xx y
  else large f (loadU L x) (maskLoad x) L n y

/-- `Unroller` with two input arrays (unroller-inl.h:371-467). -/
def unroller2 (mf : Bool) (f : Fns (List α × List α') β) (maskLoad0 : List α → Int → Int → M (List α))
    (maskLoad1 : List α' → Int → Int → M (List α')) (maxL L : Nat) (zero : β) (xtmp0 : List α) (xtmp1 : List α')
    (ytmp : List β) (x0 : List α) (x1 : List α') (y : List β) (n : Nat) : M (List β) := do
  if mf && decide (n < L) then
    let c0 ← loadU n x0 0
    let xtmp0 ← storeU c0 xtmp0 0
    let c1 ← loadU n x1 0
    let xtmp1 ← storeU c1 xtmp1 0
    let xx0 ← maskLoad0 xtmp0 0 n
    let xx1 ← maskLoad1 xtmp1 0 n
    small f maxL L n zero ytmp (xx0, xx1) y
  else
    large f (fun i => do
        let a ← loadU L x0 i
        let b ← loadU L x1 i
        return (a, b))
      (fun idx places => do
        let a ← maskLoad0 x0 idx places
        let b ← maskLoad1 x1 idx places
        return (a, b)) L n y

end Unroll
end Hwy
