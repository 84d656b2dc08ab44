import Verif.Basic

/-!
# Vectors and memory

A vector of `N` lanes is a `List` of length `N`, an array is a `List`; reading or writing outside the
array is undefined behaviour (`Fault.ub`).  The operations follow their documentation in
`g3doc/quick_reference.md` and the reference implementation `hwy/ops/emu128-inl.h`.
-/

namespace Hwy
namespace Vec

variable {α : Type}

/-- `LoadU(d, from + i)` (emu128-inl.h:1399-1402): reads `N` elements. -/
def loadU (N : Nat) (a : List α) (i : Nat) : M (List α) :=
  if i + N ≤ a.length then .ok ((a.drop i).take N) else .error .ub

/-- `StoreU(v, d, to + i)` (emu128-inl.h:1443-1446): writes every lane. -/
def storeU (v : List α) (a : List α) (i : Nat) : M (List α) :=
  if i + v.length ≤ a.length then .ok (a.take i ++ v ++ a.drop (i + v.length)) else .error .ub

/-- `LoadN(d, from + i, rem)` (emu128-inl.h:1416-1423): reads `min(rem, N)` elements, zero elsewhere. -/
def loadN (N : Nat) (zero : α) (a : List α) (i rem : Nat) : M (List α) :=
  if i + min rem N ≤ a.length then
    .ok ((a.drop i).take (min rem N) ++ List.replicate (N - min rem N) zero)
  else .error .ub

/-- `LoadNOr(no, d, from + i, rem)` (emu128-inl.h:1426-1433): like `LoadN`, other lanes from `no`. -/
def loadNOr (N : Nat) (no : List α) (a : List α) (i rem : Nat) : M (List α) :=
  if i + min rem N ≤ a.length then .ok ((a.drop i).take (min rem N) ++ no.drop (min rem N))
  else .error .ub

/-- `StoreN(v, d, to + i, rem)` (emu128-inl.h:1462-1469): writes the first `min(rem, N)` lanes. -/
def storeN (v : List α) (a : List α) (i rem : Nat) : M (List α) := storeU (v.take rem) a i

/-- `SafeFillN`, `SafeCopyN` (generic_ops-inl.h:187-214): both preprocessor branches write exactly
`num` elements. -/
def safeFillN (num : Nat) (x : α) (to : List α) (i : Nat) : M (List α) :=
  storeU (List.replicate num x) to i

def safeCopyN (num : Nat) (src to : List α) (i : Nat) : M (List α) := do
  let v ← loadU num src i
  storeU v to i

/-- `FirstN(d, n)` (emu128-inl.h:405-413). -/
def firstN (N n : Nat) : List Bool := (List.range N).map (fun i => decide (i < n))

/-- `MaskedLoad(mask, d, from + base)` where it does not fault for inactive lanes: lane `i` reads
`from[base + i]` if active, else is zero; `base` may lie before the array. -/
def maskedLoad (zero : α) (mask : List Bool) (a : List α) (base : Int) : M (List α) :=
  (List.range mask.length).mapM (fun (i : Nat) =>
    if mask[i]?.getD false then
      (if 0 ≤ base + i then readAt a (base + i).toNat else .error .ub)
    else .ok zero)

/-- Lanes of `v` whose mask is true, in order (`Compress`, emu128-inl.h:2704-2723). -/
def select (v : List α) (mask : List Bool) : List α :=
  ((v.zip mask).filter (fun p => p.2)).map (fun p => p.1)

/-- `CompressBlendedStore(v, mask, d, to)` (emu128-inl.h:2797-2815): writes exactly the
selected lanes, returns their number. -/
def compressBlendedStore (v : List α) (mask : List Bool) (to : List α) (i : Nat) : M (List α × Nat) := do
  let to ← storeU (select v mask) to i
  return (to, (select v mask).length)

/-- `FindFirstTrue(d, mask)` (emu128-inl.h:2672-2680), `-1` as `none`. -/
def findFirstTrue (mask : List Bool) : Option Nat := mask.findIdx? id

/-! ### Facts -/

theorem loadU_ok (N : Nat) (a : List α) (i : Nat) (h : i + N ≤ a.length) :
    loadU N a i = .ok ((a.drop i).take N) := by simp [loadU, h]

theorem storeU_ok (v a : List α) (i : Nat) (h : i + v.length ≤ a.length) :
    storeU v a i = .ok (a.take i ++ v ++ a.drop (i + v.length)) := by simp [storeU, h]

theorem loadU_length {N : Nat} {a v : List α} {i : Nat} (h : loadU N a i = .ok v) : v.length = N := by
  unfold loadU at h
  split at h
  · simp only [Except.ok.injEq] at h
    subst h; simp; omega
  · simp at h

/-- Block loop shared by the algorithms: `idx = 0; if (count >= N) for (; idx <= count - N; idx += N)`.
Returns the index reached and the state; fuel exhaustion would be non-termination. -/
def blocks {σ : Type} (N count : Nat) (body : Nat → σ → M σ) : Nat → Nat → σ → M (Nat × σ)
  | 0, _, _ => .error .abort
  | fuel + 1, idx, s =>
    if N ≤ count ∧ idx ≤ count - N then do
      let s ← body idx s
      blocks N count body fuel (idx + N) s
    else .ok (idx, s)

/-- Invariant rule: the loop stops at the largest multiple of `N` not above `count`. -/
theorem blocks_spec {σ : Type} (N count : Nat) (hN : 0 < N) (body : Nat → σ → M σ)
    (inv : Nat → σ → Prop)
    (hb : ∀ i s, N ∣ i → i + N ≤ count → inv i s → ∃ s', body i s = .ok s' ∧ inv (i + N) s') :
    ∀ fuel i s, N ∣ i → i ≤ count → count < i + fuel → inv i s →
      ∃ j s', blocks N count body fuel i s = .ok (j, s') ∧ N ∣ j ∧ j ≤ count ∧ count < j + N ∧ inv j s' := by
  intro fuel
  induction fuel with
  | zero => intro i s _ _ h; omega
  | succ fuel ih =>
    intro i s hd hle hf hi
    unfold blocks
    by_cases hc : N ≤ count ∧ i ≤ count - N
    · rw [if_pos hc]
      obtain ⟨s1, h1, h2⟩ := hb i s hd (by omega) hi
      rw [h1]
      obtain ⟨j, s', q⟩ := ih (i + N) s1 (Nat.dvd_add hd (Nat.dvd_refl N)) (by omega) (by omega) h2
      exact ⟨j, s', q⟩
    · rw [if_neg hc]
      exact ⟨i, s, rfl, hd, hle, by omega, hi⟩

end Vec
end Hwy
