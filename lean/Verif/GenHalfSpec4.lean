import Verif.GenHalfSpec3
import Verif.EmuConvF2I

/-!
# C60, part 5: `PromoteInRange*To` and products of `bfloat16_t` lanes
-/

namespace Hwy
namespace Emu
open CInt Flt

/-! ### `float` to 64-bit integers -/

/-- What an in-range conversion promises: the value truncated toward zero if the type holds it. -/
def TruncInRange (t : Ty) (b : Nat) (r : Int) : Prop :=
  f32.Fin b → t.Has (truncQ (f32.real b)) → r = truncQ (f32.real b)

section
variable {t : Ty} (ht : t ∈ convTys) {N : Nat} (hN : N ≤ 2) (hNt : N ≤ cap t) {v : List Int} (hv : Reg u32 v)
include ht hN hNt hv

theorem in_range_of {r : M (List Int)} {s : Nat → Nat} (hs : ∀ i, i < N → s i < 4)
    (hr : Runs u32 N r (fun i => lane v (s i))) :
    Lanes t N (r >>= fun h => ConvertInRangeF2I f32 t N h) (fun i x => TruncInRange t (pat v (s i)) x) := by
  obtain ⟨h, e, hh⟩ := hr
  rw [e]
  refine (C49_float_to_int_in_range (F := f32) (Or.inl rfl) ht (show N ≤ 4 by omega) hNt hh.1).mono fun i x hi hx => ?_
  have : pat h i = pat v (s i) := by
    unfold pat; rw [hh.2 i hi]
  rw [this] at hx
  exact hx

/-- **C60.** `PromoteInRangeLowerTo`, `…UpperTo`, `…EvenTo`, `…OddTo`: lanes `i`, `N + i`, `2i`, `2i + 1` of the source. -/
theorem C60_promote_in_range_lower : Lanes t N (PromoteInRangeLowerTo t N v) (fun i x => TruncInRange t (pat v i) x) :=
  in_range_of ht hN hNt hv (s := fun i => i) (fun i hi => by omega)
    (xlower (N := 4) (t := u32) (Is.refl hv) (by decide) (by decide) (by omega))
theorem C60_promote_in_range_upper : Lanes t N (PromoteInRangeUpperTo t N v) (fun i x => TruncInRange t (pat v (N + i)) x) :=
  in_range_of ht hN hNt hv (s := fun i => N + i) (fun i hi => by omega)
    (xupper (N := 4) (t := u32) (Is.refl hv) (by decide) (by decide) (by omega))
theorem C60_promote_in_range_even : Lanes t N (PromoteInRangeEvenTo t N v) (fun i x => TruncInRange t (pat v (2 * i)) x) := by
  have hr : Runs u32 N (ConcatEven 0 (cap u32) N v v >>= fun c => LowerHalf 0 (cap u32) N c) (fun i => lane v (2 * i)) := by
    refine Runs.bind (xconcateven (t := u32) (by decide) (show 2 * N ≤ 4 by omega) (Is.refl hv) (Is.refl hv)) fun c hc => ?_
    refine Runs.congr (xlower hc (by decide) (show 2 * N ≤ 4 by omega) (by omega)) fun i hi => ?_
    beta_reduce
    rw [if_pos hi]
  have h := in_range_of ht hN hNt hv (s := fun i => 2 * i) (fun i hi => by omega) hr
  rw [bind_assoc] at h
  exact h
theorem C60_promote_in_range_odd : Lanes t N (PromoteInRangeOddTo t N v) (fun i x => TruncInRange t (pat v (2 * i + 1)) x) := by
  have hr : Runs u32 N (ConcatOdd 0 (cap u32) N v v >>= fun c => LowerHalf 0 (cap u32) N c) (fun i => lane v (2 * i + 1)) := by
    refine Runs.bind (xconcatodd (t := u32) (by decide) (show 2 * N ≤ 4 by omega) (Is.refl hv) (Is.refl hv)) fun c hc => ?_
    refine Runs.congr (xlower hc (by decide) (show 2 * N ≤ 4 by omega) (by omega)) fun i hi => ?_
    beta_reduce
    rw [if_pos hi]
  have h := in_range_of ht hN hNt hv (s := fun i => 2 * i + 1) (fun i hi => by omega) hr
  rw [bind_assoc] at h
  exact h

end

/-! ### Products of `bfloat16_t` lanes -/

/-- A `bfloat16_t` is the upper half of a `float`. -/
def asF32 (h : Nat) : Nat := h * 2 ^ 16

/-- The rounded product of the `bfloat16_t` bits `x` and `y` plus the `float` `c`, rounded. -/
def MulAddRule (x y c r : Nat) : Prop :=
  ∃ m, ProdRule f32 (asF32 x) (asF32 y) m ∧ SumRule f32 m (f32.neg c) c (f32.real m + f32.real c) r

theorem asF32_eq (h : Nat) : f32FromBF16 h = asF32 h := by
  unfold f32FromBF16 asF32
  rw [Nat.shiftLeft_eq]

section
variable {N : Nat} (hN : N ≤ 4) {a b c : List Int} (ha : Reg u16 a) (hb : Reg u16 b) (hc : Reg u32 c)
include hN ha hb hc

/-- **C60.** `MulEvenAdd`, `MulOddAdd` of `bfloat16_t` lanes. -/
theorem C60_mul_even_add_bf16 : Lanes u32 N (MulEvenAddBF16 N a b c) (fun i r =>
    MulAddRule (pat a (2 * i)) (pat b (2 * i)) (pat c i) r.toNat) := by
  unfold MulEvenAddBF16
  refine (C49_promote_even_bf16 hN ha).bind fun x hx lx => (C49_promote_even_bf16 hN hb).bind fun y hy ly => ?_
  refine (C54_mul_add (F := f32) (Or.inl rfl) hN hx hy hc).mono fun i r hi hr => ?_
  rw [show pat x i = _ from lx i hi, show pat y i = _ from ly i hi, asF32_eq, asF32_eq] at hr
  exact hr
theorem C60_mul_odd_add_bf16 : Lanes u32 N (MulOddAddBF16 N a b c) (fun i r =>
    MulAddRule (pat a (2 * i + 1)) (pat b (2 * i + 1)) (pat c i) r.toNat) := by
  unfold MulOddAddBF16
  refine (C49_promote_odd_bf16 hN ha).bind fun x hx lx => (C49_promote_odd_bf16 hN hb).bind fun y hy ly => ?_
  refine (C54_mul_add (F := f32) (Or.inl rfl) hN hx hy hc).mono fun i r hi hr => ?_
  rw [show pat x i = _ from lx i hi, show pat y i = _ from ly i hi, asF32_eq, asF32_eq] at hr
  exact hr

/-- **C60.** `ReorderWidenMulAccumulate` of `bfloat16_t` lanes: the even products are added to `sum0`, the odd ones to
`sum1`; together every product is added exactly once. -/
theorem C60_reorder_widen_mul_acc_bf16 {c1 : List Int} (hc1 : Reg u32 c1) :
    ∃ s0 s1, ReorderWidenMulAccBF16 N a b c c1 = .ok (s0, s1) ∧ Reg u32 s0 ∧ Reg u32 s1 ∧ ∀ i, i < N →
      MulAddRule (pat a (2 * i)) (pat b (2 * i)) (pat c i) (pat s0 i) ∧
      MulAddRule (pat a (2 * i + 1)) (pat b (2 * i + 1)) (pat c1 i) (pat s1 i) := by
  obtain ⟨s1, e1, r1, l1⟩ := C60_mul_odd_add_bf16 hN ha hb hc1
  obtain ⟨s0, e0, r0, l0⟩ := C60_mul_even_add_bf16 hN ha hb hc
  refine ⟨s0, s1, ?_, r0, r1, fun i hi => ⟨l0 i hi, l1 i hi⟩⟩
  unfold ReorderWidenMulAccBF16
  rw [e1]
  show (MulEvenAddBF16 N a b c >>= _) = _
  rw [e0]
  rfl

end
end Emu
end Hwy
