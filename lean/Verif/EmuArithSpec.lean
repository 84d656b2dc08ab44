import Verif.EmuLemmas
import Verif.DivisorSpec
import Mathlib.Tactic.IntervalCases

/-!
# C38: the integer lane operations of the reference target do what `quick_reference.md` says

Every theorem is about all eight lane types (or those the operation is documented for), every number
of lanes `N` up to a full vector, and all lane and padding contents.  `Lanes t N r P` also says that
the operation runs without undefined behaviour (in particular without signed overflow) and that the
result is a well-formed register of type `t`.
-/

namespace Hwy
namespace Emu
open CInt

/-! ### Specification vocabulary -/

/-- A register: `16 / sizeof(T)` values of type `t` (lanes, then padding). -/
structure Reg (t : Ty) (a : List Int) : Prop where
  len : a.length = cap t
  has : ∀ x ∈ a, t.Has x

/-- Value of lane `i`. -/
def lane (a : List Int) (i : Nat) : Int := a.getD i 0

/-- `r` is a register of type `t` whose lanes `i < N` satisfy `P i`. -/
def Lanes (t : Ty) (N : Nat) (r : M (List Int)) (P : Nat → Int → Prop) : Prop :=
  ∃ v, r = .ok v ∧ Reg t v ∧ ∀ i, i < N → P i (lane v i)

/-- `x` clamped to the range of `t`. -/
def clamp (t : Ty) (x : Int) : Int := max t.lo (min t.hi x)

/-- Bits of a lane (two's complement). -/
def bitsOf (t : Ty) (x : Int) : BitVec t.bits := BitVec.ofInt t.bits x

/-- `m` is a mask whose lane `i < N` is true iff `b i`: all bits set, or none. -/
structure IsMask (t : Ty) (N : Nat) (m : List Int) (b : Nat → Bool) : Prop where
  len : m.length = cap t
  has : ∀ x ∈ m, t.unsigned.Has x
  lanes : ∀ i, i < N → lane m i = if b i then 2 ^ t.bits - 1 else 0

/-! ### Lemmas -/

theorem lane_some {a : List Int} {i : Nat} (h : i < a.length) : a[i]? = some (lane a i) := by
  simp [lane, List.getD, h]

theorem lane_of_some {a : List Int} {i : Nat} {x : Int} (h : a[i]? = some x) : lane a i = x := by
  simp [lane, List.getD, h]

theorem Reg.lane_has {t : Ty} {a : List Int} (h : Reg t a) {i : Nat} (hi : i < cap t) :
    t.Has (lane a i) := by
  apply h.has
  have hl : i < a.length := by rw [h.len]; exact hi
  have := lane_some hl
  rw [List.getElem?_eq_getElem hl, Option.some.injEq] at this
  rw [← this]
  exact List.getElem_mem hl

theorem reg_of_lanes {t : Ty} {r r0 : List Int} {N : Nat} (hr : r.length = cap t)
    (h0 : ∀ x ∈ r0, t.Has x) {g : Nat → Int} (h1 : ∀ j, j < N → r[j]? = some (g j))
    (hg : ∀ j, j < N → t.Has (g j)) (h2 : ∀ j, N ≤ j → r[j]? = r0[j]?) : Reg t r := by
  refine ⟨hr, fun x hx => ?_⟩
  obtain ⟨j, hj, rfl⟩ := List.getElem_of_mem hx
  by_cases hN : j < N
  · have := h1 j hN
    rw [List.getElem?_eq_getElem hj, Option.some.injEq] at this
    rw [this]; exact hg j hN
  · have := h2 j (by omega)
    rw [List.getElem?_eq_getElem hj] at this
    exact h0 _ (List.mem_of_getElem? this.symm)

/-- A loop writing `g i` to lane `i` of a register. -/
theorem lanes_of_loop {t : Ty} {N : Nat} {body : Nat → List Int → M (List Int)} {r0 : List Int}
    (h0 : Reg t r0) (hN : N ≤ cap t) (g : Nat → Int) (hg : ∀ i, i < N → t.Has (g i))
    (hb : ∀ i, i < N → ∀ r : List Int, r.length = r0.length → (∀ j, j < i → r[j]? = some (g j)) →
      (∀ j, i ≤ j → r[j]? = r0[j]?) → body i r = writeAt r i (g i)) :
    Lanes t N (forN N body r0) (fun i x => x = g i) := by
  obtain ⟨r, e, hl, h1, h2⟩ := forN_lanes N body r0 g (by rw [h0.len]; exact hN) hb
  exact ⟨r, e, reg_of_lanes (by rw [hl, h0.len]) h0.has h1 hg h2, fun i hi => lane_of_some (h1 i hi)⟩

theorem Lanes.mono {t : Ty} {N : Nat} {r : M (List Int)} {P Q : Nat → Int → Prop} (h : Lanes t N r P)
    (hPQ : ∀ i x, i < N → P i x → Q i x) : Lanes t N r Q := by
  obtain ⟨v, e, hr, hl⟩ := h
  exact ⟨v, e, hr, fun i hi => hPQ i _ hi (hl i hi)⟩

theorem map2_lanes {t : Ty} {N : Nat} {f : Val → Val → M Val} {a b : List Int} (ha : Reg t a)
    (hb : Reg t b) (hN : N ≤ cap t) (g : Int → Int → Int)
    (hf : ∀ i, i < N → f ⟨t, lane a i⟩ ⟨t, lane b i⟩ = .ok ⟨t, g (lane a i) (lane b i)⟩)
    (hg : ∀ i, i < N → t.Has (g (lane a i) (lane b i))) :
    Lanes t N (map2 t N f a b) (fun i x => x = g (lane a i) (lane b i)) := by
  unfold map2
  apply lanes_of_loop ha hN (fun i => g (lane a i) (lane b i)) hg
  intro i hi r hl h1 h2
  have e1 : r[i]? = some (lane a i) := by rw [h2 i le_rfl]; exact lane_some (by rw [ha.len]; omega)
  have e2 : b[i]? = some (lane b i) := lane_some (by rw [hb.len]; omega)
  rw [readAt_some e1, readAt_some e2, ok_bind', ok_bind', hf i hi, ok_bind']

theorem map1_lanes {t : Ty} {N : Nat} {f : Val → M Val} {a : List Int} (ha : Reg t a)
    (hN : N ≤ cap t) (g : Int → Int)
    (hf : ∀ i, i < N → f ⟨t, lane a i⟩ = .ok ⟨t, g (lane a i)⟩)
    (hg : ∀ i, i < N → t.Has (g (lane a i))) :
    Lanes t N (map1 t N f a) (fun i x => x = g (lane a i)) := by
  unfold map1
  apply lanes_of_loop ha hN (fun i => g (lane a i)) hg
  intro i hi r hl h1 h2
  have e1 : r[i]? = some (lane a i) := by rw [h2 i le_rfl]; exact lane_some (by rw [ha.len]; omega)
  rw [readAt_some e1, ok_bind', hf i hi, ok_bind']

theorem reg_zero {t : Ty} (h : t ∈ laneTys) : Reg t (zero t) := by
  refine ⟨by simp [zero], fun x hx => ?_⟩
  rw [List.eq_of_mem_replicate hx]
  simp only [laneTys, List.mem_cons, List.not_mem_nil, or_false] at h
  rcases h with h | h | h | h | h | h | h | h <;> subst h <;> decide

theorem lane_zero (t : Ty) (i : Nat) : lane (zero t) i = 0 := by
  simp [lane, zero, List.getD, List.getElem?_replicate]
  split_ifs <;> rfl

theorem tys {P : Ty → Prop} (h : ∀ t ∈ [u8, i8, u16, i16, u32, i32, u64, i64], P t) {t : Ty}
    (ht : t ∈ laneTys) : P t := h t ht

theorem modEq_wrap (t : Ty) (x : Int) : t.wrap x ≡ x [ZMOD 2 ^ t.bits] := wrap_emod t x

/-! ### Add, Sub, Neg, Mul -/

theorem addLane_eq {t : Ty} (h : t ∈ laneTys) (x y : Int) :
    addLane t ⟨t, x⟩ ⟨t, y⟩ = .ok ⟨t, t.wrap (x + y)⟩ := by
  show Except.ok (cast t (band ⟨u64, _⟩ _)) = _
  rw [cast_mask t h]
  have e1 : ∀ z, u64.wrap (u64.wrap z) = u64.wrap z := fun z => wrap_wrap_of_le _ _ le_rfl z
  have hb := bits_le h
  show Except.ok (⟨t, t.wrap (u64.wrap (u64.wrap (u64.wrap x) + u64.wrap (u64.wrap y)))⟩ : Val) = _
  rw [wrap_wrap_of_le t u64 hb, e1, e1, wrap_wrap_add t u64 hb]

theorem subLane_eq {t : Ty} (h : t ∈ laneTys) (x y : Int) :
    subLane t ⟨t, x⟩ ⟨t, y⟩ = .ok ⟨t, t.wrap (x - y)⟩ := by
  show Except.ok (cast t (band ⟨u64, _⟩ _)) = _
  rw [cast_mask t h]
  have e1 : ∀ z, u64.wrap (u64.wrap z) = u64.wrap z := fun z => wrap_wrap_of_le _ _ le_rfl z
  have hb := bits_le h
  show Except.ok (⟨t, t.wrap (u64.wrap (u64.wrap (u64.wrap x) - u64.wrap (u64.wrap y)))⟩ : Val) = _
  rw [wrap_wrap_of_le t u64 hb, e1, e1, wrap_wrap_sub t u64 hb]

/-- `operator+`: `a[i] + b[i]` (mod 2^bits). -/
theorem C38_add {t : Ty} (h : t ∈ laneTys) {N : Nat} (hN : N ≤ cap t) {a b : List Int} (ha : Reg t a)
    (hb : Reg t b) :
    Lanes t N (Add t N a b) (fun i x => x ≡ lane a i + lane b i [ZMOD 2 ^ t.bits]) :=
  (map2_lanes ha hb hN (fun x y => t.wrap (x + y)) (fun i _ => addLane_eq h _ _)
    (fun i _ => has_wrap' h _)).mono (fun i x _ e => by rw [e]; exact modEq_wrap t _)

/-- `operator-`: `a[i] - b[i]` (mod 2^bits). -/
theorem C38_sub {t : Ty} (h : t ∈ laneTys) {N : Nat} (hN : N ≤ cap t) {a b : List Int} (ha : Reg t a)
    (hb : Reg t b) :
    Lanes t N (Sub t N a b) (fun i x => x ≡ lane a i - lane b i [ZMOD 2 ^ t.bits]) :=
  (map2_lanes ha hb hN (fun x y => t.wrap (x - y)) (fun i _ => subLane_eq h _ _)
    (fun i _ => has_wrap' h _)).mono (fun i x _ e => by rw [e]; exact modEq_wrap t _)

/-- `Neg`: `-a[i]` (mod 2^bits). -/
theorem C38_neg {t : Ty} (h : t ∈ laneTys) {N : Nat} (hN : N ≤ cap t) {a : List Int} (ha : Reg t a) :
    Lanes t N (Neg t N a) (fun i x => x ≡ - lane a i [ZMOD 2 ^ t.bits]) :=
  (C38_sub h hN (reg_zero h) ha).mono (fun i x _ e => by rw [lane_zero, zero_sub] at e; exact e)

theorem mulLane_eq {t : Ty} (h : t ∈ laneTys) (x y : Int) :
    mulLane t ⟨t, x⟩ ⟨t, y⟩ = .ok ⟨t, t.wrap (x * y)⟩ := by
  show Except.ok (⟨t, t.wrap (u64.wrap (u64.wrap (u64.wrap x) * u64.wrap (u64.wrap y)))⟩ : Val) = _
  have e1 : ∀ z, u64.wrap (u64.wrap z) = u64.wrap z := fun z => wrap_wrap_of_le _ _ le_rfl z
  have hb := bits_le h
  rw [wrap_wrap_of_le t u64 hb, e1, e1, wrap_wrap_mul t u64 hb]

/-- `operator*`: the low bits of `a[i] * b[i]`. -/
theorem C38_mul {t : Ty} (h : t ∈ laneTys) {N : Nat} (hN : N ≤ cap t) {a b : List Int} (ha : Reg t a)
    (hb : Reg t b) :
    Lanes t N (Mul t N a b) (fun i x => x ≡ lane a i * lane b i [ZMOD 2 ^ t.bits]) :=
  (map2_lanes ha hb hN (fun x y => t.wrap (x * y)) (fun i _ => mulLane_eq h _ _)
    (fun i _ => has_wrap' h _)).mono (fun i x _ e => by rw [e]; exact modEq_wrap t _)

/-! ### Logical operations -/

theorem unsigned_bits (t : Ty) : t.unsigned.bits = t.bits := rfl

theorem ofInt_cast_unsigned (t : Ty) (x : Val) :
    BitVec.ofInt t.bits (cast t.unsigned x).v = BitVec.ofInt t.bits x.v := ofInt_wrap t.unsigned x.v

theorem notLane_eq {t : Ty} (h : t ∈ laneTys) (x : Int) :
    notLane t ⟨t, x⟩ = .ok ⟨t, t.ofBits (~~~ bitsOf t x)⟩ := by
  unfold notLane
  rw [cast_cast_unsigned h, bnot_low _ (promote_bits h), ofInt_cast_unsigned]
  rfl

theorem andLane_eq {t : Ty} (h : t ∈ laneTys) (x y : Int) :
    andLane t ⟨t, x⟩ ⟨t, y⟩ = .ok ⟨t, t.ofBits (bitsOf t x &&& bitsOf t y)⟩ := by
  unfold andLane
  rw [cast_cast_unsigned h, band_low _ _ (common_bits h), ofInt_cast_unsigned, ofInt_cast_unsigned]
  rfl

theorem orLane_eq {t : Ty} (h : t ∈ laneTys) (x y : Int) :
    orLane t ⟨t, x⟩ ⟨t, y⟩ = .ok ⟨t, t.ofBits (bitsOf t x ||| bitsOf t y)⟩ := by
  unfold orLane
  rw [cast_cast_unsigned h, bor_low _ _ (common_bits h), ofInt_cast_unsigned, ofInt_cast_unsigned]
  rfl

theorem xorLane_eq {t : Ty} (h : t ∈ laneTys) (x y : Int) :
    xorLane t ⟨t, x⟩ ⟨t, y⟩ = .ok ⟨t, t.ofBits (bitsOf t x ^^^ bitsOf t y)⟩ := by
  unfold xorLane
  rw [cast_cast_unsigned h, bxor_low _ _ (common_bits h), ofInt_cast_unsigned, ofInt_cast_unsigned]
  rfl

/-- `Not`: `~a[i]`. -/
theorem C38_not {t : Ty} (h : t ∈ laneTys) {N : Nat} (hN : N ≤ cap t) {a : List Int} (ha : Reg t a) :
    Lanes t N (Not t N a) (fun i x => bitsOf t x = ~~~ bitsOf t (lane a i)) :=
  (map1_lanes ha hN (fun x => t.ofBits (~~~ bitsOf t x)) (fun i _ => notLane_eq h _)
    (fun i _ => has_ofBits t (bits_pos h) _)).mono (fun i x _ e => by rw [e]; exact ofInt_ofBits t _)

/-- `And`: `a[i] & b[i]`. -/
theorem C38_and {t : Ty} (h : t ∈ laneTys) {N : Nat} (hN : N ≤ cap t) {a b : List Int} (ha : Reg t a)
    (hb : Reg t b) :
    Lanes t N (And t N a b) (fun i x => bitsOf t x = bitsOf t (lane a i) &&& bitsOf t (lane b i)) :=
  (map2_lanes ha hb hN (fun x y => t.ofBits (bitsOf t x &&& bitsOf t y)) (fun i _ => andLane_eq h _ _)
    (fun i _ => has_ofBits t (bits_pos h) _)).mono (fun i x _ e => by rw [e]; exact ofInt_ofBits t _)

/-- `Or`: `a[i] | b[i]`. -/
theorem C38_or {t : Ty} (h : t ∈ laneTys) {N : Nat} (hN : N ≤ cap t) {a b : List Int} (ha : Reg t a)
    (hb : Reg t b) :
    Lanes t N (Or t N a b) (fun i x => bitsOf t x = bitsOf t (lane a i) ||| bitsOf t (lane b i)) :=
  (map2_lanes ha hb hN (fun x y => t.ofBits (bitsOf t x ||| bitsOf t y)) (fun i _ => orLane_eq h _ _)
    (fun i _ => has_ofBits t (bits_pos h) _)).mono (fun i x _ e => by rw [e]; exact ofInt_ofBits t _)

/-- `Xor`: `a[i] ^ b[i]`. -/
theorem C38_xor {t : Ty} (h : t ∈ laneTys) {N : Nat} (hN : N ≤ cap t) {a b : List Int} (ha : Reg t a)
    (hb : Reg t b) :
    Lanes t N (Xor t N a b) (fun i x => bitsOf t x = bitsOf t (lane a i) ^^^ bitsOf t (lane b i)) :=
  (map2_lanes ha hb hN (fun x y => t.ofBits (bitsOf t x ^^^ bitsOf t y)) (fun i _ => xorLane_eq h _ _)
    (fun i _ => has_ofBits t (bits_pos h) _)).mono (fun i x _ e => by rw [e]; exact ofInt_ofBits t _)

/-- Sequencing of two operations. -/
theorem Lanes.bind {t s : Ty} {N K : Nat} {r : M (List Int)} {P Q : Nat → Int → Prop}
    {f : List Int → M (List Int)} (h : Lanes t N r P)
    (hf : ∀ v, Reg t v → (∀ i, i < N → P i (lane v i)) → Lanes s K (f v) Q) : Lanes s K (r >>= f) Q := by
  obtain ⟨v, e, hr, hl⟩ := h
  rw [e, ok_bind']
  exact hf v hr hl

/-- `AndNot`: `~a[i] & b[i]`. -/
theorem C38_and_not {t : Ty} (h : t ∈ laneTys) {N : Nat} (hN : N ≤ cap t) {a b : List Int} (ha : Reg t a)
    (hb : Reg t b) :
    Lanes t N (AndNot t N a b) (fun i x => bitsOf t x = ~~~ bitsOf t (lane a i) &&& bitsOf t (lane b i)) :=
  (C38_not h hN ha).bind (fun v hv hl => (C38_and h hN hv hb).mono
    (fun i x hi e => by rw [e, hl i hi]))

/-- `Xor3`, `Or3`, `OrAnd`. -/
theorem C38_xor3 {t : Ty} (h : t ∈ laneTys) {N : Nat} (hN : N ≤ cap t) {a b c : List Int} (ha : Reg t a)
    (hb : Reg t b) (hc : Reg t c) :
    Lanes t N (Xor3 t N a b c)
      (fun i x => bitsOf t x = bitsOf t (lane a i) ^^^ bitsOf t (lane b i) ^^^ bitsOf t (lane c i)) :=
  (C38_xor h hN hb hc).bind (fun v hv hl => (C38_xor h hN ha hv).mono
    (fun i x hi e => by rw [e, hl i hi, BitVec.xor_assoc]))

theorem C38_or3 {t : Ty} (h : t ∈ laneTys) {N : Nat} (hN : N ≤ cap t) {a b c : List Int} (ha : Reg t a)
    (hb : Reg t b) (hc : Reg t c) :
    Lanes t N (Or3 t N a b c)
      (fun i x => bitsOf t x = bitsOf t (lane a i) ||| bitsOf t (lane b i) ||| bitsOf t (lane c i)) :=
  (C38_or h hN hb hc).bind (fun v hv hl => (C38_or h hN ha hv).mono
    (fun i x hi e => by rw [e, hl i hi, BitVec.or_assoc]))

theorem C38_or_and {t : Ty} (h : t ∈ laneTys) {N : Nat} (hN : N ≤ cap t) {o a b : List Int} (ho : Reg t o)
    (ha : Reg t a) (hb : Reg t b) :
    Lanes t N (OrAnd t N o a b)
      (fun i x => bitsOf t x = bitsOf t (lane o i) ||| (bitsOf t (lane a i) &&& bitsOf t (lane b i))) :=
  (C38_and h hN ha hb).bind (fun v hv hl => (C38_or h hN ho hv).mono
    (fun i x hi e => by rw [e, hl i hi]))

/-- `IfVecThenElse`: bit by bit `mask ? yes : no`. -/
theorem C38_if_vec_then_else {t : Ty} (h : t ∈ laneTys) {N : Nat} (hN : N ≤ cap t) {m y n : List Int}
    (hm : Reg t m) (hy : Reg t y) (hn : Reg t n) :
    Lanes t N (IfVecThenElse t N m y n) (fun i x => ∀ k, k < t.bits → (bitsOf t x).getLsbD k =
      if (bitsOf t (lane m i)).getLsbD k then (bitsOf t (lane y i)).getLsbD k
      else (bitsOf t (lane n i)).getLsbD k) :=
  (C38_and h hN hm hy).bind (fun v hv hl => (C38_and_not h hN hm hn).bind
    (fun w hw hl2 => (C38_or h hN hv hw).mono (fun i x hi e k hk => by
      rw [e, hl i hi, hl2 i hi]
      simp only [BitVec.getLsbD_or, BitVec.getLsbD_and, BitVec.getLsbD_not, hk, decide_true, Bool.true_and]
      cases (bitsOf t (lane m i)).getLsbD k <;> simp)))

/-! ### Masks -/

theorem fromBool_eq {t : Ty} (h : t ∈ laneTys) (b : Bool) :
    fromBool t b = if b then 2 ^ t.bits - 1 else 0 := by
  simp only [laneTys, List.mem_cons, List.not_mem_nil, or_false] at h
  rcases h with h | h | h | h | h | h | h | h <;> subst h <;> cases b <;> decide

theorem lane_map {f : Int → Int} (h0 : f 0 = 0) (a : List Int) (i : Nat) :
    lane (a.map f) i = f (lane a i) := by
  simp only [lane, List.getD, List.getElem?_map]
  cases a[i]? <;> simp [h0]

theorem wrap_zero {t : Ty} (h : t ∈ laneTys) : t.wrap 0 = 0 := by
  simp only [laneTys, List.mem_cons, List.not_mem_nil, or_false] at h
  rcases h with h | h | h | h | h | h | h | h <;> subst h <;> decide

theorem wrap_zero' (t : Ty) (h : t ∈ laneTys) : t.unsigned.wrap 0 = 0 := by
  simp only [laneTys, List.mem_cons, List.not_mem_nil, or_false] at h
  rcases h with h | h | h | h | h | h | h | h <;> subst h <;> decide

theorem reg_map {t s : Ty} (hs : 0 < s.bits) (hb : s.bits = t.bits) {a : List Int} (ha : a.length = cap t) :
    Reg s (a.map s.wrap) := by
  refine ⟨by rw [List.length_map, ha]; unfold cap; rw [hb], fun x hx => ?_⟩
  obtain ⟨y, _, rfl⟩ := List.mem_map.1 hx
  exact has_wrap s hs y

theorem bits_of_mask {t : Ty} (h : t ∈ laneTys) (b : Bool) :
    BitVec.ofInt t.bits (if b then 2 ^ t.bits - 1 else 0) = if b then BitVec.allOnes t.bits else 0 := by
  simp only [laneTys, List.mem_cons, List.not_mem_nil, or_false] at h
  rcases h with h | h | h | h | h | h | h | h <;> subst h <;> cases b <;> decide

theorem IsMask.bits {t : Ty} (h : t ∈ laneTys) {N : Nat} {m : List Int} {b : Nat → Bool}
    (hm : IsMask t N m b) {i : Nat} (hi : i < N) :
    bitsOf t (lane (vecFromMask t m) i) = if b i then BitVec.allOnes t.bits else 0 := by
  unfold vecFromMask bitsOf
  rw [lane_map (wrap_zero h), ofInt_wrap, hm.lanes i hi, bits_of_mask h]

theorem IsMask.reg {t : Ty} (h : t ∈ laneTys) {N : Nat} {m : List Int} {b : Nat → Bool}
    (hm : IsMask t N m b) : Reg t (vecFromMask t m) := reg_map (bits_pos h) rfl hm.len

theorem eq_of_bits {t : Ty} (h : t ∈ laneTys) {x y : Int} (hx : t.Has x) (hy : t.Has y)
    (e : ∀ k, k < t.bits → (bitsOf t x).getLsbD k = (bitsOf t y).getLsbD k) : x = y :=
  ofBits_inj t (bits_pos h) hx hy (BitVec.eq_of_getLsbD_eq e)

theorem lanes_has {t : Ty} {N : Nat} {r : M (List Int)} {P Q : Nat → Int → Prop} (hN : N ≤ cap t)
    (h : Lanes t N r P) (hPQ : ∀ i x, i < N → t.Has x → P i x → Q i x) : Lanes t N r Q := by
  obtain ⟨v, e, hr, hl⟩ := h
  exact ⟨v, e, hr, fun i hi => hPQ i _ hi (hr.lane_has (by omega)) (hl i hi)⟩

/-- `IfThenElse(mask, yes, no)`: `mask[i] ? yes[i] : no[i]`. -/
theorem C38_if_then_else {t : Ty} (h : t ∈ laneTys) {N : Nat} (hN : N ≤ cap t) {m y n : List Int}
    {b : Nat → Bool} (hm : IsMask t N m b) (hy : Reg t y) (hn : Reg t n) :
    Lanes t N (IfThenElse t N m y n) (fun i x => x = if b i then lane y i else lane n i) := by
  refine lanes_has hN (C38_if_vec_then_else h hN (hm.reg h) hy hn) (fun i x hi hx e => ?_)
  have hi' : i < cap t := by omega
  apply eq_of_bits h hx
  · split_ifs
    · exact hy.lane_has hi'
    · exact hn.lane_has hi'
  · intro k hk
    rw [e k hk, hm.bits h hi]
    cases b i
    · simp
    · simp [hk]

theorem C38_if_then_else_zero {t : Ty} (h : t ∈ laneTys) {N : Nat} (hN : N ≤ cap t) {m y : List Int}
    {b : Nat → Bool} (hm : IsMask t N m b) (hy : Reg t y) :
    Lanes t N (IfThenElseZero t N m y) (fun i x => x = if b i then lane y i else 0) :=
  (C38_if_then_else h hN hm hy (reg_zero h)).mono (fun i x _ e => by rw [e, lane_zero])

theorem C38_if_then_zero_else {t : Ty} (h : t ∈ laneTys) {N : Nat} (hN : N ≤ cap t) {m n : List Int}
    {b : Nat → Bool} (hm : IsMask t N m b) (hn : Reg t n) :
    Lanes t N (IfThenZeroElse t N m n) (fun i x => x = if b i then 0 else lane n i) :=
  (C38_if_then_else h hN hm (reg_zero h) hn).mono (fun i x _ e => by rw [e, lane_zero])

theorem signed_wrap_neg {t : Ty} (h : t ∈ laneTys) (x : Int) :
    t.signed.wrap x < 0 ↔ (bitsOf t x).msb = true := by
  have e : t.signed.wrap x = (BitVec.ofInt t.bits x).toInt :=
    (ofBits_ofInt t.signed (show 0 < t.bits from bits_pos h) x).symm
  rw [e, BitVec.msb_eq_toInt]
  simp [bitsOf]

/-- `IfNegativeThenElse`: selects by the sign (most significant) bit. -/
theorem C38_if_negative_then_else {t : Ty} (h : t ∈ laneTys) {N : Nat} (hN : N ≤ cap t)
    {v y n : List Int} (hv : Reg t v) (hy : Reg t y) (hn : Reg t n) :
    Lanes t N (IfNegativeThenElse t N v y n)
      (fun i x => x = if (bitsOf t (lane v i)).msb then lane y i else lane n i) := by
  unfold IfNegativeThenElse
  apply lanes_of_loop hv hN
  · intro i hi
    split_ifs
    · exact hy.lane_has (by omega)
    · exact hn.lane_has (by omega)
  · intro i hi r hl h1 h2
    have e1 : (v.map t.signed.wrap)[i]? = some (t.signed.wrap (lane v i)) := by
      rw [List.getElem?_map, lane_some (by rw [hv.len]; omega)]; rfl
    rw [readAt_some e1, ok_bind']
    have e2 := signed_wrap_neg h (lane v i)
    have ey : readAt y i = .ok (lane y i) := readAt_some (lane_some (by rw [hy.len]; omega))
    have en : readAt n i = .ok (lane n i) := readAt_some (lane_some (by rw [hn.len]; omega))
    rw [ey, en]
    by_cases hm : (bitsOf t (lane v i)).msb = true
    · rw [if_pos (e2.2 hm), if_pos hm, ok_bind']
    · rw [if_neg (fun hc => hm (e2.1 hc)), if_neg hm, ok_bind']

/-- A mask operation computed on the vector view. -/
theorem mask_of_lanes {t : Ty} (h : t ∈ laneTys) {N : Nat} (hN : N ≤ cap t) {r : M (List Int)}
    {b : Nat → Bool}
    (hr : Lanes t N r (fun i x => bitsOf t x = if b i then BitVec.allOnes t.bits else 0)) :
    ∃ m, (do return maskFromVec t (← r) : M (List Int)) = .ok m ∧ IsMask t N m b := by
  obtain ⟨v, e, hv, hl⟩ := hr
  refine ⟨maskFromVec t v, by rw [e]; rfl, ?_⟩
  refine ⟨by rw [maskFromVec, List.length_map, hv.len], fun x hx => ?_, fun i hi => ?_⟩
  · obtain ⟨y, _, rfl⟩ := List.mem_map.1 hx
    exact has_wrap t.unsigned (show 0 < t.bits from bits_pos h) y
  · unfold maskFromVec
    rw [lane_map (wrap_zero' t h), wrap_eq_ofBits t.unsigned (show 0 < t.bits from bits_pos h)]
    have := hl i hi
    unfold bitsOf at this
    show ((BitVec.ofInt t.bits (lane v i)).toNat : Int) = _
    rw [this]
    have := Nat.two_pow_pos t.bits
    cases b i
    · simp
    · simp

/-- Logical operations on masks, lane by lane. -/
theorem C38_mask_logic {t : Ty} (h : t ∈ laneTys) {N : Nat} (hN : N ≤ cap t) {ma mb : List Int}
    {a b : Nat → Bool} (ha : IsMask t N ma a) (hb : IsMask t N mb b) :
    (∃ m, MaskNot t N ma = .ok m ∧ IsMask t N m (fun i => !a i)) ∧
    (∃ m, MaskAnd t N ma mb = .ok m ∧ IsMask t N m (fun i => a i && b i)) ∧
    (∃ m, MaskAndNot t N ma mb = .ok m ∧ IsMask t N m (fun i => !a i && b i)) ∧
    (∃ m, MaskOr t N ma mb = .ok m ∧ IsMask t N m (fun i => a i || b i)) ∧
    (∃ m, MaskXor t N ma mb = .ok m ∧ IsMask t N m (fun i => xor (a i) (b i))) ∧
    (∃ m, ExclusiveNeither t N ma mb = .ok m ∧ IsMask t N m (fun i => !a i && !b i)) := by
  have hva := ha.reg h
  have hvb := hb.reg h
  refine ⟨?_, ?_, ?_, ?_, ?_, ?_⟩
  · apply mask_of_lanes h hN
    exact (C38_not h hN hva).mono (fun i x hi e => by
      rw [e, ha.bits h hi]; cases a i <;> simp)
  · apply mask_of_lanes h hN
    exact (C38_and h hN hva hvb).mono (fun i x hi e => by
      rw [e, ha.bits h hi, hb.bits h hi]; cases a i <;> cases b i <;> simp)
  · apply mask_of_lanes h hN
    exact (C38_and_not h hN hva hvb).mono (fun i x hi e => by
      rw [e, ha.bits h hi, hb.bits h hi]; cases a i <;> cases b i <;> simp)
  · apply mask_of_lanes h hN
    exact (C38_or h hN hva hvb).mono (fun i x hi e => by
      rw [e, ha.bits h hi, hb.bits h hi]; cases a i <;> cases b i <;> simp)
  · apply mask_of_lanes h hN
    exact (C38_xor h hN hva hvb).mono (fun i x hi e => by
      rw [e, ha.bits h hi, hb.bits h hi]; cases a i <;> cases b i <;> simp)
  · obtain ⟨w, ew, hw, hlw⟩ := C38_not h hN hvb
    have := mask_of_lanes (b := fun i => !a i && !b i) h hN ((C38_and_not h hN hva hw).mono (fun i x hi e => by
      rw [e, hlw i hi, ha.bits h hi, hb.bits h hi]; cases a i <;> cases b i <;> simp))
    unfold ExclusiveNeither
    rw [ew, ok_bind']
    exact this

/-! ### Shifts -/

theorem promote_mem {t : Ty} (h : t ∈ laneTys) : t.promote ∈ laneTys := by
  simp only [laneTys, List.mem_cons, List.not_mem_nil, or_false] at h
  rcases h with h | h | h | h | h | h | h | h <;> subst h <;> decide

theorem unsigned_mem {t : Ty} (h : t ∈ laneTys) : t.unsigned ∈ laneTys := by
  simp only [laneTys, List.mem_cons, List.not_mem_nil, or_false] at h
  rcases h with h | h | h | h | h | h | h | h <;> subst h <;> decide

theorem has_promote {t : Ty} (h : t ∈ laneTys) {x : Int} (hx : t.Has x) : t.promote.Has x := by
  simp only [laneTys, List.mem_cons, List.not_mem_nil, or_false] at h
  rcases h with h | h | h | h | h | h | h | h <;> subst h <;>
    (obtain ⟨h1, h2⟩ := hx
     norm_num [Ty.lo, Ty.hi, Ty.Has, Ty.promote, u8, i8, u16, i16, u32, i32, u64, i64] at h1 h2 ⊢
     try omega)

theorem neg_div (x m : Int) (hm : 0 < m) : -((-x - 1) / m) - 1 = x / m := by
  have h1 := Int.emod_nonneg x (ne_of_gt hm)
  have h2 := Int.emod_lt_of_pos x hm
  have h3 := Int.emod_add_mul_ediv x m
  have e : -x - 1 = (m - 1 - x % m) + m * (-(x / m) - 1) := by linarith
  rw [e, Int.add_mul_ediv_left _ _ (ne_of_gt hm), Int.ediv_eq_zero_of_lt (by omega) (by omega)]
  ring

theorem has_div {t : Ty} {x : Int} (hx : t.Has x) (m : Int) (hm : 0 < m) : t.Has (x / m) := by
  obtain ⟨h1, h2⟩ := hx
  have hlo : t.lo ≤ 0 := by
    unfold Ty.lo; split_ifs
    · have : (0 : Int) < 2 ^ (t.bits - 1) := by positivity
      omega
    · omega
  have hhi : 0 ≤ t.hi := by
    unfold Ty.hi
    have : (0 : Int) < 2 ^ (t.bits - 1) := by positivity
    have : (0 : Int) < 2 ^ t.bits := by positivity
    split_ifs <;> omega
  have h3 := Int.emod_nonneg x (ne_of_gt hm)
  have h4 := Int.emod_lt_of_pos x hm
  have h5 := Int.emod_add_mul_ediv x m
  constructor
  · rw [Int.le_ediv_iff_mul_le hm]
    nlinarith
  · by_cases hx0 : 0 ≤ x
    · exact le_trans (Int.ediv_le_self _ hx0) h2
    · have : x / m < 0 := Int.ediv_neg_of_neg_of_pos (by omega) hm
      omega

theorem scalarShr_eq (ar : Bool) {t : Ty} (h : t ∈ laneTys) {x : Int} (hx : t.Has x) {n : Int}
    (h0 : 0 ≤ n) (h1 : n < t.bits) :
    scalarShr ar ⟨t, x⟩ n = .ok ⟨t, x / 2 ^ n.toNat⟩ := by
  have hm : (0 : Int) < 2 ^ n.toNat := by positivity
  have hpos := bits_pos h
  have hle : t.bits ≤ t.promote.bits := by
    simp only [laneTys, List.mem_cons, List.not_mem_nil, or_false] at h
    rcases h with h | h | h | h | h | h | h | h <;> subst h <;> decide
  unfold scalarShr
  split_ifs with hc hn
  · have hs : shr ⟨t, x⟩ n = .ok ⟨t.promote, x / 2 ^ n.toNat⟩ := by
      unfold shr
      simp only
      rw [if_neg (by omega), wrap_has' (promote_mem h) (has_promote h hx)]
    rw [hs]
    show Except.ok (⟨t, t.wrap (x / 2 ^ n.toNat)⟩ : Val) = _
    rw [wrap_has' h (has_div hx _ hm)]
  · -- negative
    simp only at hn
    have hsg : t.sgn = true := by
      cases hb : t.sgn
      · simp [hb] at hc
      · rfl
    have hxl : -(2 ^ (t.bits - 1)) ≤ x := by
      have := hx.1; unfold Ty.lo at this; rwa [if_pos hsg] at this
    have e2 := two_pow_split hpos
    have hu : t.unsigned ∈ laneTys := unsigned_mem h
    have hq : t.unsigned.Has (-x - 1) := by
      unfold Ty.Has Ty.lo Ty.hi
      show (0 : Int) ≤ -x - 1 ∧ -x - 1 ≤ 2 ^ t.bits - 1
      constructor <;> omega
    have e1 : cast t.unsigned (bnot (cast t.unsigned ⟨t, x⟩)) = ⟨t.unsigned, -x - 1⟩ := by
      have hv := bnot_low (cast t.unsigned ⟨t, x⟩) (n := t.bits) (promote_bits h)
      rw [ofInt_cast_unsigned, ← ofInt_not] at hv
      show (⟨t.unsigned, t.unsigned.wrap _⟩ : Val) = _
      rw [← wrap_has' hu hq]
      congr 1
      rw [wrap_has' hu hq]
      conv_rhs => rw [← wrap_has' hu hq]
      exact wrap_congr t.unsigned (ofInt_eq_iff.1 hv)
    simp only
    rw [e1]
    have hs : shr ⟨t.unsigned, -x - 1⟩ n = .ok ⟨t.unsigned.promote, (-x - 1) / 2 ^ n.toNat⟩ := by
      unfold shr
      simp only
      have := promote_bits h
      rw [if_neg (by omega), wrap_has' (promote_mem hu) (has_promote hu hq)]
    rw [hs, ok_bind']
    show Except.ok (cast t (cast t.unsigned (bnot _))) = _
    rw [cast_cast_unsigned h, bnot_low]
    · simp only
      rw [← ofInt_not, neg_div x _ hm, ← wrap_eq_ofBits t hpos, wrap_has' h (has_div hx _ hm)]
    · have : t.unsigned.promote.promote = t.unsigned.promote := by
        simp only [laneTys, List.mem_cons, List.not_mem_nil, or_false] at h
        rcases h with h | h | h | h | h | h | h | h <;> subst h <;> decide
      show t.bits ≤ t.unsigned.promote.promote.bits
      rw [this]; exact promote_bits h
  · -- non-negative
    simp only at hn
    have hu : t.unsigned ∈ laneTys := unsigned_mem h
    have hsg : t.sgn = true := by
      cases hb : t.sgn
      · simp [hb] at hc
      · rfl
    have hxh : x ≤ 2 ^ (t.bits - 1) - 1 := by
      have := hx.2; unfold Ty.hi at this; rwa [if_pos hsg] at this
    have e2 := two_pow_split hpos
    have hq : t.unsigned.Has x := by
      unfold Ty.Has Ty.lo Ty.hi
      show (0 : Int) ≤ x ∧ x ≤ 2 ^ t.bits - 1
      constructor
      · omega
      · have : (0 : Int) < 2 ^ (t.bits - 1) := by positivity
        omega
    have e1 : cast t.unsigned ⟨t, x⟩ = ⟨t.unsigned, x⟩ := by
      show (⟨t.unsigned, t.unsigned.wrap x⟩ : Val) = _
      rw [wrap_has' hu hq]
    simp only
    rw [e1]
    have hs : shr ⟨t.unsigned, x⟩ n = .ok ⟨t.unsigned.promote, x / 2 ^ n.toNat⟩ := by
      unfold shr
      simp only
      have := promote_bits h
      rw [if_neg (by omega), wrap_has' (promote_mem hu) (has_promote hu hq)]
    rw [hs, ok_bind']
    show Except.ok (cast t (cast t.unsigned _)) = _
    rw [cast_cast_unsigned h]
    simp only
    rw [← wrap_eq_ofBits t hpos, wrap_has' h (has_div hx _ hm)]

/-- `ShiftRight`: `a[i] >> k`, arithmetic for signed lanes: `⌊a[i] / 2^k⌋`, with either overload of
`ScalarShr`. -/
theorem C38_shift_right (ar : Bool) {t : Ty} (h : t ∈ laneTys) {N : Nat} (hN : N ≤ cap t) {a : List Int}
    (ha : Reg t a) {k : Nat} (hk : k < t.bits) :
    Lanes t N (ShiftRight ar t N k a) (fun i x => x = lane a i / 2 ^ k) :=
  map1_lanes ha hN (fun x => x / 2 ^ k)
    (fun i hi => scalarShr_eq ar h (ha.lane_has (by omega)) (by omega) (by exact_mod_cast hk))
    (fun i hi => has_div (ha.lane_has (by omega)) _ (by positivity))

/-- `operator>>`: lane-wise shift counts. -/
theorem C38_shr (ar : Bool) {t : Ty} (h : t ∈ laneTys) {N : Nat} (hN : N ≤ cap t) {a b : List Int}
    (ha : Reg t a) (hb : Reg t b) (hk : ∀ i, i < N → 0 ≤ lane b i ∧ lane b i < t.bits) :
    Lanes t N (Shr ar t N a b) (fun i x => x = lane a i / 2 ^ (lane b i).toNat) := by
  refine map2_lanes ha hb hN (fun x y => x / 2 ^ y.toNat) (fun i hi => ?_)
    (fun i hi => has_div (ha.lane_has (by omega)) _ (by positivity))
  have hbl := bits_le h
  have e : (cast i32 ⟨t, lane b i⟩).v = lane b i := by
    show i32.wrap (lane b i) = _
    apply wrap_of_has (by decide)
    have := hk i hi
    norm_num [Ty.Has, Ty.lo, Ty.hi, i32]
    omega
  rw [e]
  exact scalarShr_eq ar h (ha.lane_has (by omega)) (hk i hi).1 (hk i hi).2

/-- `BroadcastSignBit`: all bits equal the sign bit. -/
theorem C38_broadcast_sign_bit (ar : Bool) {t : Ty} (h : t ∈ laneTys) {N : Nat} (hN : N ≤ cap t)
    {a : List Int} (ha : Reg t a) (hs : t.sgn = true) :
    Lanes t N (BroadcastSignBit ar t N a) (fun i x => x = if lane a i < 0 then -1 else 0) := by
  have hpos := bits_pos h
  refine (map1_lanes ha hN (fun x => x / 2 ^ (t.bits - 1 : Int).toNat)
    (fun i hi => scalarShr_eq ar h (ha.lane_has (by omega)) (by omega) (by omega))
    (fun i hi => has_div (ha.lane_has (by omega)) _ (by positivity))).mono (fun i x hi e => ?_)
  rw [e]
  obtain ⟨h1, h2⟩ := ha.lane_has (i := i) (by omega)
  unfold Ty.lo at h1
  unfold Ty.hi at h2
  rw [if_pos hs] at h1 h2
  have e1 : (t.bits - 1 : Int).toNat = t.bits - 1 := by omega
  rw [e1]
  have p : (0 : Int) < 2 ^ (t.bits - 1) := by positivity
  split_ifs with hn
  · rw [← neg_div _ _ p, Int.ediv_eq_zero_of_lt (by omega) (by omega)]; rfl
  · exact Int.ediv_eq_zero_of_lt (by omega) (by omega)

theorem shiftLeftLane_eq {t : Ty} (h : t ∈ laneTys) {x : Int} {k : Int} (h0 : 0 ≤ k) (h1 : k < t.bits) :
    shiftLeftLane t k ⟨t, x⟩ = .ok ⟨t, t.wrap (x * 2 ^ k.toNat)⟩ := by
  have hu : t.unsigned ∈ laneTys := unsigned_mem h
  have hpu := promote_bits h
  have hux : t.unsigned.Has (t.unsigned.wrap x) := has_wrap' hu x
  have hgoal : ∀ y : Int, y % 2 ^ t.bits = (t.unsigned.wrap x * 2 ^ k.toNat) % 2 ^ t.bits →
      (Except.ok (cast t ⟨t.unsigned.promote, y⟩) : M Val) = .ok ⟨t, t.wrap (x * 2 ^ k.toNat)⟩ := by
    intro y hy
    show (Except.ok (⟨t, t.wrap y⟩ : Val) : M Val) = _
    congr 2
    apply wrap_congr
    rw [hy, Int.mul_emod, show t.unsigned.wrap x % 2 ^ t.bits = x % 2 ^ t.bits from wrap_emod t.unsigned x,
      ← Int.mul_emod]
  have hneg : ¬ (k < 0 ∨ (t.unsigned.promote.bits : Int) ≤ k) := by omega
  have h2 : ¬ (t.unsigned.promote.sgn = true ∧ t.unsigned.wrap x < 0) := by
    rintro ⟨_, hc⟩
    have := hux.1
    have e : t.unsigned.lo = 0 := rfl
    omega
  have hs : shl (CInt.cast t.unsigned ⟨t, x⟩) k
      = arith t.unsigned.promote (t.unsigned.wrap x * 2 ^ k.toNat) := by
    show shl ⟨t.unsigned, t.unsigned.wrap x⟩ k = _
    unfold shl
    simp only
    rw [if_neg hneg, if_neg h2, wrap_has' (promote_mem hu) (has_promote hu hux)]
  unfold shiftLeftLane
  rw [hs]
  by_cases hb : t.bits < 32
  · -- computed in `int`
    have e : t.unsigned.promote = i32 := by unfold Ty.promote; exact if_pos hb
    have hr : i32.Has (t.unsigned.wrap x * 2 ^ k.toNat) := by
      obtain ⟨g1, g2⟩ := hux
      have e1 : t.unsigned.lo = 0 := rfl
      have e2 : t.unsigned.hi = 2 ^ t.bits - 1 := rfl
      rw [e1] at g1; rw [e2] at g2
      have hb16 : t.bits ≤ 16 := by
        simp only [laneTys, List.mem_cons, List.not_mem_nil, or_false] at h
        rcases h with h | h | h | h | h | h | h | h <;> subst h <;>
          first | decide | (exfalso; revert hb; decide)
      have hk15 : (2 : Int) ^ k.toNat ≤ 2 ^ 15 := pow_le_pow_right₀ (by norm_num) (by omega)
      have hp : (0 : Int) < 2 ^ k.toNat := by positivity
      have hx16 : t.unsigned.wrap x ≤ 2 ^ 16 - 1 := by
        have : (2 : Int) ^ t.bits ≤ 2 ^ 16 := pow_le_pow_right₀ (by norm_num) hb16
        omega
      have hL : i32.lo = -2147483648 := by decide
      have hH : i32.hi = 2147483647 := by decide
      unfold Ty.Has
      rw [hL, hH]
      clear hs hgoal hneg h2 e
      norm_num at hk15 hx16
      constructor <;> nlinarith
    have := hgoal (t.unsigned.wrap x * 2 ^ k.toNat) rfl
    rw [e] at this ⊢
    unfold arith
    rw [if_pos (show i32.sgn = true from rfl), if_pos hr]
    exact this
  · have e : t.unsigned.promote = t.unsigned := by
      unfold Ty.promote
      exact if_neg hb
    have := hgoal (t.unsigned.wrap (t.unsigned.wrap x * 2 ^ k.toNat)) (wrap_emod t.unsigned _)
    rw [e] at this ⊢
    unfold arith
    rw [if_neg (show ¬ t.unsigned.sgn = true from Bool.false_ne_true)]
    exact this

/-- `ShiftLeft`: `a[i] << k` (mod 2^bits). -/
theorem C38_shift_left {t : Ty} (h : t ∈ laneTys) {N : Nat} (hN : N ≤ cap t) {a : List Int}
    (ha : Reg t a) {k : Nat} (hk : k < t.bits) :
    Lanes t N (ShiftLeft t N k a) (fun i x => x ≡ lane a i * 2 ^ k [ZMOD 2 ^ t.bits]) :=
  (map1_lanes ha hN (fun x => t.wrap (x * 2 ^ k))
    (fun i hi => shiftLeftLane_eq h (by omega) (by exact_mod_cast hk))
    (fun i hi => has_wrap' h _)).mono (fun i x _ e => by rw [e]; exact modEq_wrap t _)

/-- `operator<<`: lane-wise shift counts. -/
theorem C38_shl {t : Ty} (h : t ∈ laneTys) {N : Nat} (hN : N ≤ cap t) {a b : List Int}
    (ha : Reg t a) (hb : Reg t b) (hk : ∀ i, i < N → 0 ≤ lane b i ∧ lane b i < t.bits) :
    Lanes t N (Shl t N a b) (fun i x => x ≡ lane a i * 2 ^ (lane b i).toNat [ZMOD 2 ^ t.bits]) :=
  (map2_lanes ha hb hN (fun x y => t.wrap (x * 2 ^ y.toNat))
    (fun i hi => shiftLeftLane_eq h (hk i hi).1 (hk i hi).2)
    (fun i hi => has_wrap' h _)).mono (fun i x _ e => by rw [e]; exact modEq_wrap t _)

end Emu
end Hwy
