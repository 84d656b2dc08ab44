import Verif.EmuArithSpec4
import Verif.EmuArithSpec2

/-!
# Straight-line programs over the reference vector operations

`hwy/ops/generic_ops-inl.h` implements operations on top of the per-target ones.  Here those programs
run on the reference target: `Runs t N r F` says that the program `r` yields a register whose lanes
`i < N` are exactly `F i`, and `vrun` computes `F` for a sequence of operations by chaining the lane
functions of the individual operations.
-/

namespace Hwy
namespace Emu
open CInt

/-- Register `v` of type `t` whose lanes are `F`. -/
def Is (t : Ty) (N : Nat) (v : List Int) (F : Nat → Int) : Prop :=
  Reg t v ∧ ∀ i, i < N → lane v i = F i

/-- Program `r` yields such a register. -/
def Runs (t : Ty) (N : Nat) (r : M (List Int)) (F : Nat → Int) : Prop :=
  ∃ v, r = .ok v ∧ Is t N v F

/-- Program `r` yields the mask `b`. -/
def RunsM (t : Ty) (N : Nat) (r : M (List Int)) (b : Nat → Bool) : Prop :=
  ∃ m, r = .ok m ∧ IsMask t N m b

theorem Is.refl {t : Ty} {N : Nat} {v : List Int} (h : Reg t v) : Is t N v (lane v) := ⟨h, fun _ _ => rfl⟩

theorem Runs.of {t : Ty} {N : Nat} {r : M (List Int)} {F : Nat → Int}
    (h : Lanes t N r (fun i x => x = F i)) : Runs t N r F := by
  obtain ⟨v, e, hv, hl⟩ := h
  exact ⟨v, e, hv, hl⟩

theorem Runs.lanes {t : Ty} {N : Nat} {r : M (List Int)} {F : Nat → Int} {P : Nat → Int → Prop}
    (h : Runs t N r F) (hN : N ≤ cap t) (hP : ∀ i, i < N → t.Has (F i) → P i (F i)) : Lanes t N r P := by
  obtain ⟨v, e, hv, hl⟩ := h
  refine ⟨v, e, hv, fun i hi => ?_⟩
  have := hv.lane_has (i := i) (by omega)
  rw [hl i hi] at this ⊢
  exact hP i hi this

theorem RunsM.mask {t : Ty} {N : Nat} {r : M (List Int)} {b c : Nat → Bool} (h : RunsM t N r b)
    (hc : ∀ i, i < N → b i = c i) : ∃ m, r = .ok m ∧ IsMask t N m c := by
  obtain ⟨m, e, hm⟩ := h
  exact ⟨m, e, hm.len, hm.has, fun i hi => by rw [hm.lanes i hi, hc i hi]⟩

theorem Runs.bind {t s : Ty} {N K : Nat} {r : M (List Int)} {F G : Nat → Int}
    {f : List Int → M (List Int)} (h : Runs t N r F) (hf : ∀ v, Is t N v F → Runs s K (f v) G) :
    Runs s K (r >>= f) G := by
  obtain ⟨v, e, hv⟩ := h
  rw [e]
  exact hf v hv

theorem RunsM.bind {t s : Ty} {N K : Nat} {r : M (List Int)} {b : Nat → Bool} {G : Nat → Int}
    {f : List Int → M (List Int)} (h : RunsM t N r b) (hf : ∀ v, IsMask t N v b → Runs s K (f v) G) :
    Runs s K (r >>= f) G := by
  obtain ⟨v, e, hv⟩ := h
  rw [e]
  exact hf v hv

theorem Runs.bindM {t s : Ty} {N K : Nat} {r : M (List Int)} {F : Nat → Int} {c : Nat → Bool}
    {f : List Int → M (List Int)} (h : Runs t N r F) (hf : ∀ v, Is t N v F → RunsM s K (f v) c) :
    RunsM s K (r >>= f) c := by
  obtain ⟨v, e, hv⟩ := h
  rw [e]
  exact hf v hv

theorem RunsM.bindM {t s : Ty} {N K : Nat} {r : M (List Int)} {b c : Nat → Bool}
    {f : List Int → M (List Int)} (h : RunsM t N r b) (hf : ∀ v, IsMask t N v b → RunsM s K (f v) c) :
    RunsM s K (r >>= f) c := by
  obtain ⟨v, e, hv⟩ := h
  rw [e]
  exact hf v hv

theorem Runs.ret {t : Ty} {N : Nat} {v : List Int} {F : Nat → Int} (h : Is t N v F) :
    Runs t N (pure v) F := ⟨v, rfl, h⟩

theorem RunsM.ret {t : Ty} {N : Nat} {v : List Int} {b : Nat → Bool} (h : IsMask t N v b) :
    RunsM t N (pure v) b := ⟨v, rfl, h⟩

theorem is_zero {t : Ty} (h : t ∈ laneTys) (N : Nat) : Is t N (zero t) (fun _ => 0) :=
  ⟨reg_zero h, fun i _ => lane_zero t i⟩

/-- `BitCast` to a type of the same width. -/
theorem is_cast {t s : Ty} {N : Nat} {v : List Int} {F : Nat → Int} (hv : Is t N v F)
    (h : s ∈ laneTys) (hb : s.bits = t.bits) : Is s N (v.map s.wrap) (fun i => s.wrap (F i)) :=
  ⟨reg_map (bits_pos h) hb hv.1.len, fun i hi => by rw [lane_map (wrap_zero h), hv.2 i hi]⟩

theorem is_vecFromMask {t : Ty} (h : t ∈ laneTys) {N : Nat} {m : List Int} {b : Nat → Bool}
    (hm : IsMask t N m b) :
    Is t N (vecFromMask t m) (fun i => if b i then t.wrap (-1) else 0) := by
  refine ⟨hm.reg h, fun i hi => ?_⟩
  unfold vecFromMask
  rw [lane_map (wrap_zero h), hm.lanes i hi]
  beta_reduce
  split_ifs
  · apply wrap_congr
    rw [show (2 : Int) ^ t.bits - 1 = -1 + 2 ^ t.bits by ring, Int.add_emod_right]
  · exact wrap_zero h

section ops
variable {t : Ty} (h : t ∈ laneTys) {N : Nat} (hN : N ≤ cap t) {a b c : List Int} {F G H : Nat → Int}

/-- Replaces the lane values by those of `Is`. -/
theorem Lanes.runs {t : Ty} {N : Nat} {r : M (List Int)} {F : Nat → Int}
    {P : Nat → Int → Prop} (h : Lanes t N r P) (hN : N ≤ cap t)
    (hP : ∀ i x, i < N → t.Has x → P i x → x = F i) : Runs t N r F := Runs.of (lanes_has hN h hP)

include h in
theorem mod_unique {x z : Int} (hx : t.Has x) (e : x ≡ z [ZMOD 2 ^ t.bits]) : x = t.wrap z := by
  rw [← wrap_has' h hx]
  exact wrap_congr t e

include h in
theorem bits_unique {x : Int} {w : BitVec t.bits} (hx : t.Has x) (e : bitsOf t x = w) : x = t.ofBits w :=
  ofBits_inj t (bits_pos h) hx (has_ofBits t (bits_pos h) _) (by rw [ofInt_ofBits]; exact e)

include h hN

theorem xadd (ha : Is t N a F) (hb : Is t N b G) : Runs t N (Add t N a b) (fun i => t.wrap (F i + G i)) :=
  (C38_add h hN ha.1 hb.1).runs hN (fun i x hi hx e => by
    rw [ha.2 i hi, hb.2 i hi] at e; exact mod_unique h hx e)

theorem xsub (ha : Is t N a F) (hb : Is t N b G) : Runs t N (Sub t N a b) (fun i => t.wrap (F i - G i)) :=
  (C38_sub h hN ha.1 hb.1).runs hN (fun i x hi hx e => by
    rw [ha.2 i hi, hb.2 i hi] at e; exact mod_unique h hx e)

theorem xneg (ha : Is t N a F) : Runs t N (Neg t N a) (fun i => t.wrap (- F i)) :=
  (C38_neg h hN ha.1).runs hN (fun i x hi hx e => by
    rw [ha.2 i hi] at e; exact mod_unique h hx e)

theorem xmul (ha : Is t N a F) (hb : Is t N b G) : Runs t N (Mul t N a b) (fun i => t.wrap (F i * G i)) :=
  (C38_mul h hN ha.1 hb.1).runs hN (fun i x hi hx e => by
    rw [ha.2 i hi, hb.2 i hi] at e; exact mod_unique h hx e)

theorem xnot (ha : Is t N a F) : Runs t N (Not t N a) (fun i => t.ofBits (~~~ bitsOf t (F i))) :=
  (C38_not h hN ha.1).runs hN (fun i x hi hx e => by
    rw [ha.2 i hi] at e; exact bits_unique h hx e)

theorem xand (ha : Is t N a F) (hb : Is t N b G) :
    Runs t N (And t N a b) (fun i => t.ofBits (bitsOf t (F i) &&& bitsOf t (G i))) :=
  (C38_and h hN ha.1 hb.1).runs hN (fun i x hi hx e => by
    rw [ha.2 i hi, hb.2 i hi] at e; exact bits_unique h hx e)

theorem xor' (ha : Is t N a F) (hb : Is t N b G) :
    Runs t N (Or t N a b) (fun i => t.ofBits (bitsOf t (F i) ||| bitsOf t (G i))) :=
  (C38_or h hN ha.1 hb.1).runs hN (fun i x hi hx e => by
    rw [ha.2 i hi, hb.2 i hi] at e; exact bits_unique h hx e)

theorem xxor (ha : Is t N a F) (hb : Is t N b G) :
    Runs t N (Xor t N a b) (fun i => t.ofBits (bitsOf t (F i) ^^^ bitsOf t (G i))) :=
  (C38_xor h hN ha.1 hb.1).runs hN (fun i x hi hx e => by
    rw [ha.2 i hi, hb.2 i hi] at e; exact bits_unique h hx e)

theorem xandnot (ha : Is t N a F) (hb : Is t N b G) :
    Runs t N (AndNot t N a b) (fun i => t.ofBits (~~~ bitsOf t (F i) &&& bitsOf t (G i))) :=
  (C38_and_not h hN ha.1 hb.1).runs hN (fun i x hi hx e => by
    rw [ha.2 i hi, hb.2 i hi] at e; exact bits_unique h hx e)

theorem xxor3 (ha : Is t N a F) (hb : Is t N b G) (hc : Is t N c H) :
    Runs t N (Xor3 t N a b c) (fun i => t.ofBits (bitsOf t (F i) ^^^ (bitsOf t (G i) ^^^ bitsOf t (H i)))) :=
  Runs.bind (xxor h hN hb hc) (fun v hv => by
    obtain ⟨w, e, hw⟩ := xxor h hN ha hv
    exact ⟨w, e, hw.1, fun i hi => by rw [hw.2 i hi]; unfold bitsOf; beta_reduce; rw [ofInt_ofBits]⟩)

theorem xor3' (ha : Is t N a F) (hb : Is t N b G) (hc : Is t N c H) :
    Runs t N (Or3 t N a b c) (fun i => t.ofBits (bitsOf t (F i) ||| (bitsOf t (G i) ||| bitsOf t (H i)))) :=
  Runs.bind (xor' h hN hb hc) (fun v hv => by
    obtain ⟨w, e, hw⟩ := xor' h hN ha hv
    exact ⟨w, e, hw.1, fun i hi => by rw [hw.2 i hi]; unfold bitsOf; beta_reduce; rw [ofInt_ofBits]⟩)

theorem xshr (ar : Bool) {k : Int} (h0 : 0 ≤ k) (hk : k < t.bits) (ha : Is t N a F) :
    Runs t N (ShiftRight ar t N k a) (fun i => F i / 2 ^ k.toNat) := by
  obtain ⟨k, rfl⟩ := Int.eq_ofNat_of_zero_le h0
  exact (C38_shift_right ar h hN ha.1 (by omega)).runs hN (fun i x hi hx e => by
    rw [e, ha.2 i hi]; rfl)

theorem xshl {k : Int} (h0 : 0 ≤ k) (hk : k < t.bits) (ha : Is t N a F) :
    Runs t N (ShiftLeft t N k a) (fun i => t.wrap (F i * 2 ^ k.toNat)) := by
  obtain ⟨k, rfl⟩ := Int.eq_ofNat_of_zero_le h0
  exact (C38_shift_left h hN ha.1 (by omega)).runs hN (fun i x hi hx e => by
    rw [ha.2 i hi] at e; exact mod_unique h hx e)

theorem xshrv (ar : Bool) (ha : Is t N a F) (hb : Is t N b G)
    (hk : ∀ i, i < N → 0 ≤ G i ∧ G i < t.bits) :
    Runs t N (Shr ar t N a b) (fun i => F i / 2 ^ (G i).toNat) :=
  (C38_shr ar h hN ha.1 hb.1 (fun i hi => by rw [hb.2 i hi]; exact hk i hi)).runs hN
    (fun i x hi hx e => by rw [e, ha.2 i hi, hb.2 i hi])

theorem xshlv (ha : Is t N a F) (hb : Is t N b G)
    (hk : ∀ i, i < N → 0 ≤ G i ∧ G i < t.bits) :
    Runs t N (Shl t N a b) (fun i => t.wrap (F i * 2 ^ (G i).toNat)) :=
  (C38_shl h hN ha.1 hb.1 (fun i hi => by rw [hb.2 i hi]; exact hk i hi)).runs hN
    (fun i x hi hx e => by rw [ha.2 i hi, hb.2 i hi] at e; exact mod_unique h hx e)

theorem xbsb (ar : Bool) (hs : t.sgn = true) (ha : Is t N a F) :
    Runs t N (BroadcastSignBit ar t N a) (fun i => if F i < 0 then -1 else 0) :=
  (C38_broadcast_sign_bit ar h hN ha.1 hs).runs hN (fun i x hi hx e => by rw [e, ha.2 i hi])

theorem xset {x : Int} (hx : t.Has x) : Runs t N (Set t N x) (fun _ => x) := Runs.of (C38_set h hN hx)

theorem xmin (ha : Is t N a F) (hb : Is t N b G) : Runs t N (Min t N a b) (fun i => min (F i) (G i)) :=
  (C38_min h hN ha.1 hb.1).runs hN (fun i x hi hx e => by rw [e, ha.2 i hi, hb.2 i hi])

theorem xmax (ha : Is t N a F) (hb : Is t N b G) : Runs t N (Max t N a b) (fun i => max (F i) (G i)) :=
  (C38_max h hN ha.1 hb.1).runs hN (fun i x hi hx e => by rw [e, ha.2 i hi, hb.2 i hi])

theorem xite {m : List Int} {p : Nat → Bool} (hm : IsMask t N m p) (ha : Is t N a F) (hb : Is t N b G) :
    Runs t N (IfThenElse t N m a b) (fun i => if p i then F i else G i) :=
  (C38_if_then_else h hN hm ha.1 hb.1).runs hN (fun i x hi hx e => by rw [e, ha.2 i hi, hb.2 i hi])

theorem xitez {m : List Int} {p : Nat → Bool} (hm : IsMask t N m p) (ha : Is t N a F) :
    Runs t N (IfThenElseZero t N m a) (fun i => if p i then F i else 0) :=
  (C38_if_then_else_zero h hN hm ha.1).runs hN (fun i x hi hx e => by rw [e, ha.2 i hi])

theorem xitze {m : List Int} {p : Nat → Bool} (hm : IsMask t N m p) (ha : Is t N a F) :
    Runs t N (IfThenZeroElse t N m a) (fun i => if p i then 0 else F i) :=
  (C38_if_then_zero_else h hN hm ha.1).runs hN (fun i x hi hx e => by rw [e, ha.2 i hi])

theorem xneg_ite {v : List Int} (hv : Is t N v H) (ha : Is t N a F) (hb : Is t N b G) :
    Runs t N (IfNegativeThenElse t N v a b) (fun i => if (bitsOf t (H i)).msb then F i else G i) :=
  (C38_if_negative_then_else h hN hv.1 ha.1 hb.1).runs hN (fun i x hi hx e => by
    rw [e, hv.2 i hi, ha.2 i hi, hb.2 i hi])

theorem xeq (ha : Is t N a F) (hb : Is t N b G) : RunsM t N (Eq t N a b) (fun i => decide (F i = G i)) := by
  obtain ⟨m, e, hm⟩ := (C38_compare h hN ha.1 hb.1).1
  exact ⟨m, e, hm.len, hm.has, fun i hi => by rw [hm.lanes i hi, ha.2 i hi, hb.2 i hi]⟩

theorem xne (ha : Is t N a F) (hb : Is t N b G) : RunsM t N (Ne t N a b) (fun i => decide (F i ≠ G i)) := by
  obtain ⟨m, e, hm⟩ := (C38_compare h hN ha.1 hb.1).2.1
  exact ⟨m, e, hm.len, hm.has, fun i hi => by rw [hm.lanes i hi, ha.2 i hi, hb.2 i hi]⟩

theorem xlt (ha : Is t N a F) (hb : Is t N b G) : RunsM t N (Lt t N a b) (fun i => decide (F i < G i)) := by
  obtain ⟨m, e, hm⟩ := (C38_compare h hN ha.1 hb.1).2.2.1
  exact ⟨m, e, hm.len, hm.has, fun i hi => by rw [hm.lanes i hi, ha.2 i hi, hb.2 i hi]⟩

theorem xgt (ha : Is t N a F) (hb : Is t N b G) : RunsM t N (Gt t N a b) (fun i => decide (F i > G i)) := by
  obtain ⟨m, e, hm⟩ := (C38_compare h hN ha.1 hb.1).2.2.2.1
  exact ⟨m, e, hm.len, hm.has, fun i hi => by rw [hm.lanes i hi, ha.2 i hi, hb.2 i hi]⟩

theorem xle (ha : Is t N a F) (hb : Is t N b G) : RunsM t N (Le t N a b) (fun i => decide (F i ≤ G i)) := by
  obtain ⟨m, e, hm⟩ := (C38_compare h hN ha.1 hb.1).2.2.2.2.1
  exact ⟨m, e, hm.len, hm.has, fun i hi => by rw [hm.lanes i hi, ha.2 i hi, hb.2 i hi]⟩

theorem xge (ha : Is t N a F) (hb : Is t N b G) : RunsM t N (Ge t N a b) (fun i => decide (F i ≥ G i)) := by
  obtain ⟨m, e, hm⟩ := (C38_compare h hN ha.1 hb.1).2.2.2.2.2
  exact ⟨m, e, hm.len, hm.has, fun i hi => by rw [hm.lanes i hi, ha.2 i hi, hb.2 i hi]⟩

theorem xmnot {ma : List Int} {p : Nat → Bool} (ha : IsMask t N ma p) :
    RunsM t N (MaskNot t N ma) (fun i => !p i) := (C38_mask_logic h hN ha ha).1

theorem xmand {ma mb : List Int} {p q : Nat → Bool} (ha : IsMask t N ma p) (hb : IsMask t N mb q) :
    RunsM t N (MaskAnd t N ma mb) (fun i => p i && q i) := (C38_mask_logic h hN ha hb).2.1

theorem xmandnot {ma mb : List Int} {p q : Nat → Bool} (ha : IsMask t N ma p) (hb : IsMask t N mb q) :
    RunsM t N (MaskAndNot t N ma mb) (fun i => !p i && q i) := (C38_mask_logic h hN ha hb).2.2.1

theorem xmor {ma mb : List Int} {p q : Nat → Bool} (ha : IsMask t N ma p) (hb : IsMask t N mb q) :
    RunsM t N (MaskOr t N ma mb) (fun i => p i || q i) := (C38_mask_logic h hN ha hb).2.2.2.1

theorem xmxor {ma mb : List Int} {p q : Nat → Bool} (ha : IsMask t N ma p) (hb : IsMask t N mb q) :
    RunsM t N (MaskXor t N ma mb) (fun i => xor (p i) (q i)) := (C38_mask_logic h hN ha hb).2.2.2.2.1

end ops

theorem xsatadd {t : Ty} (h : t ∈ satTys) {N : Nat} (hN : N ≤ cap t) {a b : List Int} {F G : Nat → Int}
    (ha : Is t N a F) (hb : Is t N b G) :
    Runs t N (SaturatedAdd t N a b) (fun i => clamp t (F i + G i)) :=
  (C38_saturated_add h hN ha.1 hb.1).runs hN (fun i x hi hx e => by rw [e, ha.2 i hi, hb.2 i hi])

theorem xsatsub {t : Ty} (h : t ∈ satTys) {N : Nat} (hN : N ≤ cap t) {a b : List Int} {F G : Nat → Int}
    (ha : Is t N a F) (hb : Is t N b G) :
    Runs t N (SaturatedSub t N a b) (fun i => clamp t (F i - G i)) :=
  (C38_saturated_sub h hN ha.1 hb.1).runs hN (fun i x hi hx e => by rw [e, ha.2 i hi, hb.2 i hi])

theorem clamp_cases (t : Ty) (x : Int) (h : t.lo ≤ t.hi) :
    clamp t x = if x < t.lo then t.lo else if t.hi < x then t.hi else x := by
  unfold clamp
  split_ifs <;> omega

/-- A literal register. -/
theorem is_lit {t : Ty} {N : Nat} {v : List Int} (h : v.length = cap t ∧ v.all (fun x => decide (t.Has x)) = true) :
    Is t N v (lane v) :=
  Is.refl ⟨h.1, fun x hx => by simpa using List.all_eq_true.1 h.2 x hx⟩

/-- Side conditions on types and lane counts, and the lane functions of operands. -/
macro "vside" : tactic => `(tactic| first
  | with_reducible assumption
  | (with_reducible apply is_zero) <;> first | assumption | decide +kernel
  | decide +kernel
  | (unfold cap; first | assumption | decide +kernel | omega)
  | omega)

/-- Finds the lane function of an operand. -/
macro "vis" : tactic => `(tactic| first
  | vside
  | (repeat first
      | with_reducible assumption
      | with_reducible apply is_cast
      | with_reducible apply is_vecFromMask
      | with_reducible apply is_lit) <;> first | vside | rfl)

/-- Applies the rule of an operation. -/
macro "vapp" n:ident : tactic => `(tactic| focus ((with_reducible apply $n) <;> vis))

/-- Finds the rule of an operation. -/
syntax "vop" : tactic
macro_rules | `(tactic| vop) => `(tactic| vapp xadd)
macro_rules | `(tactic| vop) => `(tactic| vapp xsub)
macro_rules | `(tactic| vop) => `(tactic| vapp xneg)
macro_rules | `(tactic| vop) => `(tactic| vapp xmul)
macro_rules | `(tactic| vop) => `(tactic| vapp xnot)
macro_rules | `(tactic| vop) => `(tactic| vapp xand)
macro_rules | `(tactic| vop) => `(tactic| vapp xor')
macro_rules | `(tactic| vop) => `(tactic| vapp xxor)
macro_rules | `(tactic| vop) => `(tactic| vapp xandnot)
macro_rules | `(tactic| vop) => `(tactic| vapp xxor3)
macro_rules | `(tactic| vop) => `(tactic| vapp xor3')
macro_rules | `(tactic| vop) => `(tactic| vapp xshr)
macro_rules | `(tactic| vop) => `(tactic| vapp xshl)
macro_rules | `(tactic| vop) => `(tactic| vapp xbsb)
macro_rules | `(tactic| vop) => `(tactic| vapp xset)
macro_rules | `(tactic| vop) => `(tactic| vapp xmin)
macro_rules | `(tactic| vop) => `(tactic| vapp xmax)
macro_rules | `(tactic| vop) => `(tactic| vapp xite)
macro_rules | `(tactic| vop) => `(tactic| vapp xitez)
macro_rules | `(tactic| vop) => `(tactic| vapp xitze)
macro_rules | `(tactic| vop) => `(tactic| vapp xneg_ite)
macro_rules | `(tactic| vop) => `(tactic| vapp xeq)
macro_rules | `(tactic| vop) => `(tactic| vapp xne)
macro_rules | `(tactic| vop) => `(tactic| vapp xlt)
macro_rules | `(tactic| vop) => `(tactic| vapp xgt)
macro_rules | `(tactic| vop) => `(tactic| vapp xle)
macro_rules | `(tactic| vop) => `(tactic| vapp xge)
macro_rules | `(tactic| vop) => `(tactic| vapp xmnot)
macro_rules | `(tactic| vop) => `(tactic| vapp xmand)
macro_rules | `(tactic| vop) => `(tactic| vapp xmandnot)
macro_rules | `(tactic| vop) => `(tactic| vapp xmor)
macro_rules | `(tactic| vop) => `(tactic| vapp xmxor)
macro_rules | `(tactic| vop) => `(tactic| vapp xsatadd)
macro_rules | `(tactic| vop) => `(tactic| vapp xsatsub)
macro_rules | `(tactic| vop) => `(tactic| vapp Runs.ret)
macro_rules | `(tactic| vop) => `(tactic| vapp RunsM.ret)

/-- Runs one operation of a program. -/
macro "vstep" : tactic => `(tactic| first
  | (with_reducible apply Runs.bind; (on_goal 1 => vop); intro _ _)
  | (with_reducible apply RunsM.bind; (on_goal 1 => vop); intro _ _)
  | (with_reducible apply Runs.bindM; (on_goal 1 => vop); intro _ _)
  | (with_reducible apply RunsM.bindM; (on_goal 1 => vop); intro _ _)
  | vop)

/-- Runs a whole program. -/
macro "vrun" : tactic => `(tactic| repeat (first | vstep | dsimp only))

end Emu
end Hwy
