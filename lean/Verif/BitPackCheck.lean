import Verif.BitPackSpec
import Mathlib.Tactic.IntervalCases

/-! # C26: bit packing round trips, for each width

The finitely many programs are checked by the kernel (`check_*`); `roundTrip` (BitPackSpec) turns each check
into the statement for every vector length, memory and input. -/

namespace Hwy
namespace BitPack
open Vec

/-- Uninitialised variables; no program reads one before writing it. -/
def noRegs {w : Nat} : Nat → Nat → BitVec w := fun _ _ => 0

/-- `Pack8<k>().Pack(d, raw, packed)` with `Lanes(d) = N` (bit_pack-inl.h:42-790). -/
def pack8 (k N : Nat) (raw packed : List (BitVec 8)) : M (List (BitVec 8)) :=
  if k = 8 then exec (Cast.same 8) N id id raw (pack8Pack 8) noRegs packed
  else exec Cast.wide N id id raw (pack8Pack k) noRegs packed

/-- `Pack8<k>().Unpack(d, packed, raw)`. -/
def unpack8 (k N : Nat) (packed raw : List (BitVec 8)) : M (List (BitVec 8)) :=
  if k = 8 then exec (Cast.same 8) N id id packed (pack8Unpack 8) noRegs raw
  else exec Cast.wide N id id packed (pack8Unpack k) noRegs raw

/-- `Pack16<k>().Pack(d, raw, packed)` (bit_pack-inl.h:795-2598). -/
def pack16 (k N : Nat) (raw packed : List (BitVec 16)) : M (List (BitVec 16)) :=
  exec (Cast.same 16) N id id raw (pack16Pack k) noRegs packed

/-- `Pack16<k>().Unpack(d, packed, raw)`. -/
def unpack16 (k N : Nat) (packed raw : List (BitVec 16)) : M (List (BitVec 16)) :=
  exec (Cast.same 16) N id id packed (pack16Unpack k) noRegs raw

/-- `Pack32<k>().Pack<D, kFoRBitPacked>(d, raw, packed, frame)` for `B = 32`, `Pack64` for `B = 64`
(bit_pack-inl.h:2757-2844). With `frame = 0` this is also `kBitPacked` (`Sub(v, Zero)` is `v`). -/
def packB (B k N : Nat) (frame : BitVec B) (raw packed : List (BitVec B)) : M (List (BitVec B)) :=
  exec (Cast.same B) N (· - frame) id raw (packLoop B k) noRegs packed

/-- `Pack32<k>().Unpack<D, kFoRBitPacked>(d, packed, raw, frame)`, and `Pack64`. -/
def unpackB (B k N : Nat) (frame : BitVec B) (packed raw : List (BitVec B)) : M (List (BitVec B)) :=
  exec (Cast.same B) N id (· + frame) packed (unpackLoop B k) noRegs raw

theorem check_pack8 : ∀ k : Fin 7, check 16 8 8 (k.val + 1) (pack8Pack (k.val + 1)) (pack8Unpack (k.val + 1)) = true := by
  decide +kernel
theorem check_pack8_8 : check 8 8 8 8 (pack8Pack 8) (pack8Unpack 8) = true := by decide +kernel
theorem check_pack16 : ∀ k : Fin 16, k.val + 1 ≠ 11 → k.val + 1 ≠ 13 →
    check 16 16 16 (k.val + 1) (pack16Pack (k.val + 1)) (pack16Unpack (k.val + 1)) = true := by
  decide +kernel
theorem check_pack32 : ∀ k : Fin 32,
    check 32 32 32 (k.val + 1) (packLoop 32 (k.val + 1)) (unpackLoop 32 (k.val + 1)) = true := by
  decide +kernel
theorem check_pack64 : ∀ k : Fin 64,
    check 64 64 64 (k.val + 1) (packLoop 64 (k.val + 1)) (unpackLoop 64 (k.val + 1)) = true := by
  decide +kernel

theorem getLsbD_false_of_lt {B : Nat} (x : BitVec B) (k j : Nat) (h : x.toNat < 2 ^ k) (hj : k ≤ j) :
    x.getLsbD j = false := by
  rw [← BitVec.testBit_toNat]
  exact Nat.testBit_lt_two_pow (Nat.lt_of_lt_of_le h (Nat.pow_le_pow_right (by decide) hj))

theorem fit_same {B n N : Nat} (gin : BitVec B → BitVec B) (raw : List (BitVec B)) (k : Nat)
    (hfit : ∀ i, i < n * N → (gin (raw.getD i 0)).toNat < 2 ^ k) :
    ∀ s l, s < n → (Cast.same B).r * l < N → ∀ j, j < B → k ≤ j % B →
      (gin (memLane (Cast.same B) N raw s l)).getLsbD j = false := by
  intro s l hs hl j hj hk
  simp only [Cast.same, Nat.one_mul] at hl
  rw [Nat.mod_eq_of_lt hj] at hk
  have : (s + 1) * N ≤ n * N := Nat.mul_le_mul_right _ hs
  rw [Nat.add_mul, Nat.one_mul] at this
  have e : memLane (Cast.same B) N raw s l = raw.getD (s * N + l) 0 := by
    simp [memLane, Cast.same]
  rw [e]
  exact getLsbD_false_of_lt _ k j (hfit _ (by omega)) hk

theorem fit_wide {n N : Nat} (hN : 2 ∣ N) (raw : List (BitVec 8)) (k : Nat)
    (hfit : ∀ i, i < n * N → (raw.getD i 0).toNat < 2 ^ k) :
    ∀ s l, s < n → Cast.wide.r * l < N → ∀ j, j < 16 → k ≤ j % 8 →
      (id (memLane Cast.wide N raw s l)).getLsbD j = false := by
  intro s l hs hl j hj hk
  have hr : Cast.wide.r = 2 := rfl
  rw [hr] at hl
  have : (s + 1) * N ≤ n * N := Nat.mul_le_mul_right _ hs
  rw [Nat.add_mul, Nat.one_mul] at this
  unfold memLane id
  rw [Cast.wide_ok.bit _ _ hj, hr]
  apply getLsbD_false_of_lt _ k _ _ hk
  apply hfit
  obtain ⟨m, rfl⟩ := hN
  omega

/-- **C26, `Pack8<k>`, `1 ≤ k ≤ 8`.** For every vector length, if each of the `8 N` input bytes is below
`2^k`, then packing writes exactly `k` vectors and unpacking them restores the input; nothing else changes. -/
theorem C26_pack8 (k : Nat) (hk1 : 1 ≤ k) (hk8 : k ≤ 8) (N : Nat) (hN : 2 ∣ N)
    (raw packed out : List (BitVec 8)) (hraw : 8 * N ≤ raw.length) (hpacked : k * N ≤ packed.length)
    (hout : 8 * N ≤ out.length) (hfit : ∀ i, i < 8 * N → (raw.getD i 0).toNat < 2 ^ k) :
    ∃ packed', pack8 k N raw packed = .ok packed' ∧ packed'.length = packed.length ∧
      packed'.drop (k * N) = packed.drop (k * N) ∧
      unpack8 k N packed' out = .ok (raw.take (8 * N) ++ out.drop (8 * N)) := by
  by_cases h8 : k = 8
  · subst h8
    simp only [pack8, unpack8, if_true]
    exact roundTrip (Cast.same 8) (Cast.same_ok 8) (by decide) 8 8 (by decide) _ _ check_pack8_8 N (Nat.one_dvd _)
      id id (fun _ => rfl) raw packed out hraw hpacked hout _ _ (fit_same id raw 8 hfit)
  · simp only [pack8, unpack8, if_neg h8]
    have hc := check_pack8 ⟨k - 1, by omega⟩
    simp only [Nat.sub_add_cancel hk1] at hc
    exact roundTrip Cast.wide Cast.wide_ok (by decide) 8 k (by decide) _ _ hc N hN
      id id (fun _ => rfl) raw packed out hraw hpacked hout _ _ (fit_wide hN raw k hfit)

/-- **C26, `Pack16<k>`, `1 ≤ k ≤ 16`, `k ≠ 11, 13`.** -/
theorem C26_pack16 (k : Nat) (hk1 : 1 ≤ k) (hk16 : k ≤ 16) (h11 : k ≠ 11) (h13 : k ≠ 13) (N : Nat)
    (raw packed out : List (BitVec 16)) (hraw : 16 * N ≤ raw.length) (hpacked : k * N ≤ packed.length)
    (hout : 16 * N ≤ out.length) (hfit : ∀ i, i < 16 * N → (raw.getD i 0).toNat < 2 ^ k) :
    ∃ packed', pack16 k N raw packed = .ok packed' ∧ packed'.length = packed.length ∧
      packed'.drop (k * N) = packed.drop (k * N) ∧
      unpack16 k N packed' out = .ok (raw.take (16 * N) ++ out.drop (16 * N)) := by
  have hc := check_pack16 ⟨k - 1, by omega⟩
  simp only [Nat.sub_add_cancel hk1] at hc
  exact roundTrip (Cast.same 16) (Cast.same_ok 16) (by decide) 16 k (by decide) _ _ (hc h11 h13) N (Nat.one_dvd _)
    id id (fun _ => rfl) raw packed out hraw hpacked hout _ _ (fit_same id raw k hfit)

theorem packB_roundTrip (B : Nat) (hB : B ≤ 64) (k : Nat)
    (hc : check B B B k (packLoop B k) (unpackLoop B k) = true) (N : Nat) (frame : BitVec B)
    (raw packed out : List (BitVec B)) (hraw : B * N ≤ raw.length) (hpacked : k * N ≤ packed.length)
    (hout : B * N ≤ out.length) (hfit : ∀ i, i < B * N → (raw.getD i 0 - frame).toNat < 2 ^ k) :
    ∃ packed', packB B k N frame raw packed = .ok packed' ∧ packed'.length = packed.length ∧
      packed'.drop (k * N) = packed.drop (k * N) ∧
      unpackB B k N frame packed' out = .ok (raw.take (B * N) ++ out.drop (B * N)) :=
  roundTrip (Cast.same B) (Cast.same_ok B) hB B k hB _ _ hc N (Nat.one_dvd _)
    (· - frame) (· + frame) (fun x => BitVec.sub_add_cancel x frame) raw packed out hraw hpacked hout _ _
    (fit_same (· - frame) raw k hfit)

/-- **C26, `Pack32<k>`, `1 ≤ k ≤ 32`**, with any frame of reference (0: plain bit packing). -/
theorem C26_pack32 (k : Nat) (hk1 : 1 ≤ k) (hk : k ≤ 32) (N : Nat) (frame : BitVec 32)
    (raw packed out : List (BitVec 32)) (hraw : 32 * N ≤ raw.length) (hpacked : k * N ≤ packed.length)
    (hout : 32 * N ≤ out.length) (hfit : ∀ i, i < 32 * N → (raw.getD i 0 - frame).toNat < 2 ^ k) :
    ∃ packed', packB 32 k N frame raw packed = .ok packed' ∧ packed'.length = packed.length ∧
      packed'.drop (k * N) = packed.drop (k * N) ∧
      unpackB 32 k N frame packed' out = .ok (raw.take (32 * N) ++ out.drop (32 * N)) := by
  have hc := check_pack32 ⟨k - 1, by omega⟩
  simp only [Nat.sub_add_cancel hk1] at hc
  exact packB_roundTrip 32 (by decide) k hc N frame raw packed out hraw hpacked hout hfit

/-- **C26, `Pack64<k>`, `1 ≤ k ≤ 64`**, with any frame of reference (0: plain bit packing). -/
theorem C26_pack64 (k : Nat) (hk1 : 1 ≤ k) (hk : k ≤ 64) (N : Nat) (frame : BitVec 64)
    (raw packed out : List (BitVec 64)) (hraw : 64 * N ≤ raw.length) (hpacked : k * N ≤ packed.length)
    (hout : 64 * N ≤ out.length) (hfit : ∀ i, i < 64 * N → (raw.getD i 0 - frame).toNat < 2 ^ k) :
    ∃ packed', packB 64 k N frame raw packed = .ok packed' ∧ packed'.length = packed.length ∧
      packed'.drop (k * N) = packed.drop (k * N) ∧
      unpackB 64 k N frame packed' out = .ok (raw.take (64 * N) ++ out.drop (64 * N)) := by
  have hc := check_pack64 ⟨k - 1, by omega⟩
  simp only [Nat.sub_add_cancel hk1] at hc
  exact packB_roundTrip 64 (by decide) k hc N frame raw packed out hraw hpacked hout hfit

/-- **Finding.** `Pack16<11>` does not round-trip: with `N = 1` and all inputs zero except element 13 equal
to `2^10`, the value read back for element 15 is `2^8` instead of 0 (bit_pack-inl.h:1903-1905 masks with
`0x700` where only one bit per term belongs to element 15). -/
theorem C26_pack16_11_fails :
    (∀ i, i < 16 → (((List.replicate 13 0 ++ [0x400, 0, 0] : List (BitVec 16))).getD i 0).toNat < 2 ^ 11) ∧
    (pack16 11 1 (List.replicate 13 0 ++ [0x400, 0, 0]) (List.replicate 11 0) >>=
        fun p => unpack16 11 1 p (List.replicate 16 0)) =
      .ok (List.replicate 13 0 ++ [0x400, 0, 0x100]) := by
  refine ⟨by decide +kernel, by rfl⟩

/-- **Finding.** `Pack16<13>` does not round-trip: with `N = 1` and all inputs zero except element 8 equal to
`2^12`, unpacking yields 0 for element 8 (bit_pack-inl.h:2186-2193 reads `packed9`, `packedA` where `Pack`
wrote `packedB`, `packedC`). -/
theorem C26_pack16_13_fails :
    (∀ i, i < 16 → (((List.replicate 8 0 ++ 0x1000 :: List.replicate 7 0 : List (BitVec 16))).getD i 0).toNat < 2 ^ 13) ∧
    (pack16 13 1 (List.replicate 8 0 ++ 0x1000 :: List.replicate 7 0) (List.replicate 13 0) >>=
        fun p => unpack16 13 1 p (List.replicate 16 0)) ≠
      .ok (List.replicate 8 0 ++ 0x1000 :: List.replicate 7 0) := by
  refine ⟨by decide +kernel, ?_⟩
  have e : (pack16 13 1 (List.replicate 8 0 ++ 0x1000 :: List.replicate 7 0) (List.replicate 13 0) >>=
        fun p => unpack16 13 1 p (List.replicate 16 0)) = .ok (List.replicate 16 0) := by rfl
  rw [e]
  intro h
  have := Except.ok.inj h
  revert this
  decide

/-- Non-vacuity: a non-trivial input of `Pack8<3>` with two-byte vectors satisfies the hypotheses and packs
to non-zero data. -/
example : (∀ i, i < 8 * 2 → (([1, 2, 3, 4, 5, 6, 7, 0, 7, 6, 5, 4, 3, 2, 1, 0] : List (BitVec 8)).getD i 0).toNat < 2 ^ 3) ∧
    ∃ p, pack8 3 2 [1, 2, 3, 4, 5, 6, 7, 0, 7, 6, 5, 4, 3, 2, 1, 0] [0, 0, 0, 0, 0, 0] = .ok p ∧
      p ≠ [0, 0, 0, 0, 0, 0] ∧
      unpack8 3 2 p (List.replicate 16 0) = .ok [1, 2, 3, 4, 5, 6, 7, 0, 7, 6, 5, 4, 3, 2, 1, 0] := by
  refine ⟨by decide +kernel, _, rfl, by decide +kernel, rfl⟩

/-- Non-vacuity: frame of reference 1000 for `Pack32<5>`. -/
example : (∀ i, i < 32 * 1 →
    (((List.range 32).map (fun j => BitVec.ofNat 32 (1000 + j)) : List (BitVec 32)).getD i 0 - 1000#32).toNat < 2 ^ 5) := by
  decide +kernel

end BitPack
end Hwy
