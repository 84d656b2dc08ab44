import Verif.BitSetLemmas
import Mathlib.Data.List.Induction

/-!
# C01, C02: the bit sets behave as abstract sets of integers

Specification: a *history* is a list of mutating calls, oldest first. `Mem n h i` says whether `i`
is in the set after history `h`, read directly off the English: the last call that touches `i`
decides.
-/

namespace Hwy
namespace BitSetSpec

/-- A mutating call. -/
inductive Op
  | set (i : Nat)
  | clear (i : Nat)
  | setBits (w : BitVec 64)

/-- The call respects the documented argument range of a set over `[0, n)`. -/
def Op.valid (n : Nat) : Op → Prop
  | .set i => i < n
  | .clear i => i < n
  | .setBits _ => True

/-- Abstract membership after a history given *newest first*. -/
def memRev : List Op → Nat → Bool
  | [], _ => false
  | .set i :: older, j => if j = i then true else memRev older j
  | .clear i :: older, j => if j = i then false else memRev older j
  | .setBits w :: older, j => w.getLsbD j || memRev older j

/-- Abstract membership after a history given oldest first. -/
def mem (h : List Op) (j : Nat) : Bool := memRev h.reverse j

/-- Run a history on the modelled `BitSet64`. -/
def step64 (s : BitSet64) : Op → M BitSet64
  | .set i => s.set i
  | .clear i => s.clear i
  | .setBits w => .ok (s.setNonzeroBitsFrom64 w)

/-- Run a history on the modelled `BitSet4096`. -/
def step4096 (s : BitSet4096) : Op → M BitSet4096
  | .set i => s.set i
  | .clear i => s.clear i
  | .setBits w => s.setNonzeroBitsFrom64 w

theorem mem_append (h : List Op) (op : Op) (j : Nat) :
    mem (h ++ [op]) j = match op with
      | .set i => if j = i then true else mem h j
      | .clear i => if j = i then false else mem h j
      | .setBits w => w.getLsbD j || mem h j := by
  simp only [mem, List.reverse_append, List.reverse_cons, List.reverse_nil, List.nil_append,
    List.singleton_append]
  cases op <;> rfl

/-! ## BitSet64 -/

theorem run64_inv (h : List Op) (hv : ∀ op ∈ h, op.valid 64) :
    ∃ s : BitSet64, h.foldlM step64 ({} : BitSet64) = .ok s ∧
      ∀ i, i < 64 → s.bits.getLsbD i = mem h i := by
  induction h using List.reverseRecOn with
  | nil => exact ⟨{}, rfl, by intro i _; simp [mem, memRev]⟩
  | append_singleton h op ih =>
    obtain ⟨s, hs, hm⟩ := ih (fun o ho => hv o (by simp [ho]))
    have hop := hv op (by simp)
    rw [List.foldlM_append, hs]
    simp only [mem_append]
    cases op with
    | set i =>
      have hi : i < 64 := hop
      refine ⟨⟨s.bits ||| ((1#64) <<< i)⟩, by simp [step64, BitSet64.set, hi, bind, Except.bind, pure, Except.pure], ?_⟩
      intro j hj
      simp only [BitVec.getLsbD_or, getLsbD_one_shl i j hj, hm j hj]
      by_cases hji : j = i <;> simp [hji]
    | clear i =>
      have hi : i < 64 := hop
      refine ⟨⟨s.bits &&& ~~~((1#64) <<< i)⟩, by simp [step64, BitSet64.clear, hi, bind, Except.bind, pure, Except.pure], ?_⟩
      intro j hj
      simp only [BitVec.getLsbD_and, BitVec.getLsbD_not, getLsbD_one_shl i j hj, hm j hj]
      by_cases hji : j = i <;> simp [hji, hj]
    | setBits w =>
      refine ⟨⟨s.bits ||| w⟩, by simp [step64, BitSet64.setNonzeroBitsFrom64, bind, Except.bind, pure, Except.pure], ?_⟩
      intro j hj
      simp only [BitVec.getLsbD_or, hm j hj]
      rw [Bool.or_comm]

/-- **C01.** After any history of in-range calls, no undefined behaviour occurs and every query of
`BitSet64` agrees with the abstract set; `Foreach` runs its functor on exactly the members, once
each, in ascending order (for any functor, including failing ones). -/
theorem C01_bitset64 (h : List Op) (hv : ∀ op ∈ h, op.valid 64) :
    ∃ s : BitSet64, h.foldlM step64 ({} : BitSet64) = .ok s ∧
      (∀ i, i < 64 → s.get i = .ok (mem h i)) ∧
      (∀ i, i < 64 → s.get64.getLsbD i = mem h i) ∧
      (s.any = true ↔ ∃ i, i < 64 ∧ mem h i = true) ∧
      (∀ i, i < 64 → mem h i = true → (∀ j, j < i → mem h j = false) → s.first = .ok i) ∧
      s.count = ((List.range 64).filter (mem h)).length ∧
      (∀ (σ : Type) (f : σ → Nat → M σ) (st : σ),
        s.foreach f st = ((List.range 64).filter (mem h)).foldlM f st) := by
  obtain ⟨s, hs, hm⟩ := run64_inv h hv
  have hl := bitsList_eq_filter s.bits (mem h) hm
  refine ⟨s, hs, ?_, hm, ?_, ?_, ?_, ?_⟩
  · intro i hi; rw [BitSet64.get_eq s i hi, hm i hi]
  · rw [BitSet64.any_iff]
    constructor
    · rintro ⟨i, hi, hb⟩; exact ⟨i, hi, by rw [← hm i hi]; exact hb⟩
    · rintro ⟨i, hi, hb⟩; exact ⟨i, hi, by rw [hm i hi]; exact hb⟩
  · intro i hi h1 h2
    exact BitSet64.first_eq s i (by rw [hm i hi]; exact h1)
      (fun j hj => by rw [hm j (by omega)]; exact h2 j hj)
  · rw [← hl]; rfl
  · intro σ f st
    rw [BitSet64.foreach_eq, hl]

/-- Non-vacuity: a mixed history meets the hypothesis and yields a non-trivial set. -/
example : (∀ op ∈ [Op.set 5, .setBits 0x8001, .clear 0, .set 63], op.valid 64) ∧
    (List.range 64).filter (mem [Op.set 5, .setBits 0x8001, .clear 0, .set 63]) = [5, 15, 63] := by
  constructor
  · intro op hop; simp at hop; rcases hop with rfl | rfl | rfl | rfl <;> simp [Op.valid]
  · decide +kernel

/-- Out-of-range arguments are undefined behaviour in the model as in C++ (shift by 64 or more), so
the range hypothesis of `C01_bitset64` is needed. -/
theorem C01_out_of_range (s : BitSet64) (i : Nat) (hi : 64 ≤ i) :
    s.set i = .error .ub ∧ s.clear i = .error .ub ∧ s.get i = .error .ub := by
  simp [BitSet64.set, BitSet64.clear, BitSet64.get, Nat.not_lt.mpr hi]

/-! ## BitSet4096 -/

/-- Representation invariant relating a two-level set with `n` words to a membership function. -/
structure Inv (n : Nat) (s : BitSet4096) (p : Nat → Bool) : Prop where
  len : s.bits.length = n
  word : ∀ k (hk : k < s.bits.length), ∀ j, j < 64 → (s.bits[k]).bits.getLsbD j = p (k * 64 + j)
  summary : ∀ k, k < 64 → (s.nonzero.bits.getLsbD k = true ↔
    ∃ hk : k < s.bits.length, (s.bits[k]).bits ≠ 0)

theorem Inv.get {n s p} (h : Inv n s p) (i : Nat) (hi : i < n * 64) : s.get i = .ok (p i) := by
  have hk : i / 64 < s.bits.length := by rw [h.len]; omega
  simp only [BitSet4096.get, readAt_of_lt hk, bind, Except.bind]
  rw [BitSet64.get_eq _ _ (Nat.mod_lt _ (by omega)), h.word _ hk _ (Nat.mod_lt _ (by omega))]
  congr 2; omega

theorem Inv.word_ne_zero {n s p} (h : Inv n s p) (k : Nat) (hk : k < s.bits.length) :
    (s.bits[k]).bits ≠ 0 ↔ ∃ j, j < 64 ∧ p (k * 64 + j) = true := by
  constructor
  · intro hne
    obtain ⟨j, hj, hb⟩ := exists_bit_of_ne_zero _ hne
    exact ⟨j, hj, by rw [← h.word k hk j hj]; exact hb⟩
  · rintro ⟨j, hj, hb⟩ hc
    rw [← h.word k hk j hj, hc] at hb; simp at hb

theorem Inv.nz_iff {n s p} (h : Inv n s p) (hn : n ≤ 64) (k : Nat) (hk : k < 64) :
    s.nonzero.bits.getLsbD k = true ↔ k < n ∧ ∃ j, j < 64 ∧ p (k * 64 + j) = true := by
  rw [h.summary k hk]
  constructor
  · rintro ⟨h1, h2⟩; exact ⟨by rw [← h.len]; exact h1, (h.word_ne_zero k h1).mp h2⟩
  · rintro ⟨h1, h2⟩
    have h1' : k < s.bits.length := by rw [h.len]; exact h1
    exact ⟨h1', (h.word_ne_zero k h1').mpr h2⟩

theorem Inv.any {n s p} (h : Inv n s p) (hn : n ≤ 64) :
    s.any = true ↔ ∃ i, i < n * 64 ∧ p i = true := by
  rw [BitSet4096.any, BitSet64.any_iff]
  constructor
  · rintro ⟨k, hk, hb⟩
    obtain ⟨h1, j, hj, hp⟩ := (h.nz_iff hn k hk).mp hb
    exact ⟨k * 64 + j, by omega, hp⟩
  · rintro ⟨i, hi, hp⟩
    refine ⟨i / 64, by omega, (h.nz_iff hn _ (by omega)).mpr ⟨by omega, i % 64, by omega, ?_⟩⟩
    rw [show i / 64 * 64 + i % 64 = i by omega]; exact hp

theorem Inv.first {n s p} (h : Inv n s p) (hn : n ≤ 64) (i : Nat) (hi : i < n * 64)
    (h1 : p i = true) (h2 : ∀ j, j < i → p j = false) : s.first = .ok i := by
  have e := Nat.div_add_mod i 64
  have hk : i / 64 < s.bits.length := by rw [h.len]; omega
  have f1 : s.nonzero.first = .ok (i / 64) := by
    apply BitSet64.first_eq
    · rw [h.nz_iff hn _ (by omega)]
      exact ⟨by omega, i % 64, by omega, by rw [show i / 64 * 64 + i % 64 = i by omega]; exact h1⟩
    · intro k hk'
      rw [← Bool.not_eq_true, h.nz_iff hn k (by omega)]
      rintro ⟨_, j, hj, hp⟩
      rw [h2 _ (by omega)] at hp; simp at hp
  have f2 : (s.bits[i / 64]).first = .ok (i % 64) := by
    apply BitSet64.first_eq
    · rw [h.word _ hk _ (by omega), show i / 64 * 64 + i % 64 = i by omega]; exact h1
    · intro j hj
      rw [h.word _ hk _ (by omega)]; exact h2 _ (by omega)
  simp only [BitSet4096.first, f1, bind, Except.bind, readAt_of_lt hk, f2, pure, Except.pure]
  congr 1; omega

theorem foldlM_congr' {σ α : Type} (l : List α) (f g : σ → α → M σ)
    (h : ∀ st, ∀ a ∈ l, f st a = g st a) : ∀ st, l.foldlM f st = l.foldlM g st := by
  induction l with
  | nil => intro st; rfl
  | cons a l ih =>
    intro st
    rw [List.foldlM_cons, List.foldlM_cons, h st a (by simp)]
    congr 1; funext st'
    exact ih (fun st b hb => h st b (by simp [hb])) st'

theorem filter_range_mul (p : Nat → Bool) (n : Nat) :
    (List.range (n * 64)).filter p =
      (List.range n).flatMap (fun k => ((List.range 64).filter (fun j => p (k * 64 + j))).map
        (fun j => k * 64 + j)) := by
  induction n with
  | zero => rfl
  | succ n ih =>
    rw [Nat.succ_mul, List.range_add, List.filter_append, ih, List.range_succ (n := n), List.flatMap_append]
    congr 1
    simp only [List.flatMap_cons, List.flatMap_nil, List.append_nil, List.filter_map]
    rfl

theorem foldlM_flatMap' {σ α β : Type} (l : List α) (g : α → List β) (f : σ → β → M σ) : ∀ st,
    (l.flatMap g).foldlM f st = l.foldlM (fun st a => (g a).foldlM f st) st := by
  induction l with
  | nil => intro st; rfl
  | cons a l ih =>
    intro st
    rw [List.flatMap_cons, List.foldlM_append, List.foldlM_cons]
    congr 1; funext st'; exact ih st'

theorem foldlM_filter_of_nil {σ α β : Type} (l : List α) (q : α → Bool) (g : α → List β)
    (hq : ∀ a ∈ l, q a = false → g a = []) (f : σ → β → M σ) : ∀ st,
    (l.filter q).foldlM (fun st a => (g a).foldlM f st) st =
      l.foldlM (fun st a => (g a).foldlM f st) st := by
  induction l with
  | nil => intro st; rfl
  | cons a l ih =>
    intro st
    have ih' := ih (fun b hb => hq b (by simp [hb]))
    by_cases ha : q a = true
    · rw [List.filter_cons_of_pos ha, List.foldlM_cons, List.foldlM_cons]
      congr 1; funext st'; exact ih' st'
    · rw [List.filter_cons_of_neg ha, List.foldlM_cons, hq a (by simp) (by simpa using ha)]
      exact ih' st

theorem bitsList_nonzero {n s p} (h : Inv n s p) (hn : n ≤ 64) :
    bitsList s.nonzero.bits =
      (List.range n).filter (fun k => (List.range 64).any (fun j => p (k * 64 + j))) := by
  rw [bitsList_eq_filter s.nonzero.bits
    (fun k => decide (k < n) && (List.range 64).any (fun j => p (k * 64 + j)))]
  · have hr : List.range 64 = List.range n ++ (List.range (64 - n)).map (fun x => n + x) := by
      rw [← List.range_add]; congr 1; omega
    conv_lhs => arg 2; rw [hr]
    rw [List.filter_append]
    have e2 : List.filter (fun k => decide (k < n) && (List.range 64).any (fun j => p (k * 64 + j)))
        (List.map (fun x => n + x) (List.range (64 - n))) = [] := by
      rw [List.filter_eq_nil_iff]
      intro a ha
      rw [List.mem_map] at ha
      obtain ⟨b, _, rfl⟩ := ha
      simp
    rw [e2, List.append_nil]
    apply List.filter_congr
    intro k hk
    simp [List.mem_range.mp hk]
  · intro k hk
    rw [Bool.eq_iff_iff, h.nz_iff hn k hk]
    simp [List.any_eq_true, List.mem_range]

theorem Inv.foreach {n s p} (h : Inv n s p) (hn : n ≤ 64) {σ : Type} (f : σ → Nat → M σ) (st : σ) :
    s.foreach f st = ((List.range (n * 64)).filter p).foldlM f st := by
  rw [BitSet4096.foreach, BitSet64.foreach_eq, bitsList_nonzero h hn, filter_range_mul,
    foldlM_flatMap', ← foldlM_filter_of_nil (List.range n)
      (fun k => (List.range 64).any (fun j => p (k * 64 + j)))]
  · apply foldlM_congr'
    intro st k hk
    have hk' : k < s.bits.length := by
      rw [h.len]; exact List.mem_range.mp (List.mem_of_mem_filter hk)
    simp only [readAt_of_lt hk', bind, Except.bind]
    rw [BitSet64.foreach_eq, bitsList_eq_filter _ (fun j => p (k * 64 + j)) (h.word k hk'),
      List.foldlM_map]
  · intro k _ hq
    simp only [List.map_eq_nil_iff, List.filter_eq_nil_iff]
    intro j hj
    have := List.any_eq_false.mp hq j hj
    simpa using this

theorem foldlM_count (l : List Nat) (g : Nat → Nat) : ∀ t,
    l.foldlM (fun (t k : Nat) => (Except.ok (t + g k) : M Nat)) t = .ok (t + (l.map g).sum) := by
  induction l with
  | nil => intro t; rfl
  | cons a l ih =>
    intro t
    rw [List.foldlM_cons]
    simp only [bind, Except.bind]
    rw [ih]; simp [Nat.add_assoc]

theorem Inv.count {n s p} (h : Inv n s p) (hn : n ≤ 64) :
    s.count = .ok ((List.range (n * 64)).filter p).length := by
  have h2 : s.count = (bitsList s.nonzero.bits).foldlM (fun (t k : Nat) =>
      (Except.ok (t + ((List.range 64).filter (fun j => p (k * 64 + j))).length) : M Nat)) 0 := by
    rw [BitSet4096.count, BitSet64.foreach_eq]
    apply foldlM_congr'
    intro st k hk
    rw [bitsList_nonzero h hn] at hk
    have hk' : k < s.bits.length := by
      rw [h.len]; exact List.mem_range.mp (List.mem_of_mem_filter hk)
    simp only [readAt_of_lt hk', bind, Except.bind, pure, Except.pure]
    rw [BitSet64.count, popCountW]
    have := bitsList_eq_filter _ (fun j => p (k * 64 + j)) (h.word k hk')
    unfold bitsList at this
    rw [this]
  rw [h2, foldlM_count, filter_range_mul, bitsList_nonzero h hn, Nat.zero_add]
  congr 1
  rw [List.length_flatMap]
  simp only [List.length_map]
  generalize List.range n = l
  induction l with
  | nil => rfl
  | cons k l ih =>
    by_cases hk : (List.range 64).any (fun j => p (k * 64 + j)) = true
    · rw [List.filter_cons_of_pos (by simpa using hk)]
      simp [ih]
    · rw [List.filter_cons_of_neg (by simpa using hk), ih]
      have : (List.range 64).filter (fun j => p (k * 64 + j)) = [] := by
        rw [List.filter_eq_nil_iff]
        intro j hj
        have := List.any_eq_false.mp (by simpa using hk) j hj
        simpa using this
      simp [this]

theorem Inv.congr {n s p q} (h : Inv n s p) (hpq : ∀ i, i < n * 64 → p i = q i) : Inv n s q := by
  refine ⟨h.len, ?_, h.summary⟩
  intro k hk j hj
  rw [h.word k hk j hj]
  apply hpq
  have := h.len
  omega

theorem Inv.set {n s p} (h : Inv n s p) (hn : n ≤ 64) (i : Nat) (hi : i < n * 64) :
    ∃ s', s.set i = .ok s' ∧ Inv n s' (fun j => if j = i then true else p j) := by
  have hk : i / 64 < s.bits.length := by rw [h.len]; omega
  have hm : i % 64 < 64 := Nat.mod_lt _ (by omega)
  have hk64 : i / 64 < 64 := by rw [h.len] at hk; omega
  simp only [BitSet4096.set, readAt_of_lt hk, bind, Except.bind, BitSet64.set, hm,
    if_true, writeAt_of_lt _ hk, hk64, pure, Except.pure]
  refine ⟨_, rfl, ?_⟩
  refine ⟨by simp [h.len], ?_, ?_⟩
  · intro k hk' j hj
    simp only [List.length_set] at hk'
    simp only [List.getElem_set]
    by_cases hki : i / 64 = k
    · subst hki
      simp only [if_true, BitVec.getLsbD_or, h.word _ hk j hj, getLsbD_one_shl (i % 64) j hj]
      by_cases hji : j = i % 64
      · subst hji
        simp [show i / 64 * 64 + i % 64 = i by omega]
      · simp [hji, show i / 64 * 64 + j ≠ i by omega]
    · simp only [hki, if_false, h.word k hk' j hj]
      simp [show k * 64 + j ≠ i by omega]
  · intro k hk'
    simp only [BitVec.getLsbD_or, getLsbD_one_shl (i / 64) k hk', List.length_set,
      List.getElem_set, Bool.or_eq_true, decide_eq_true_eq, h.summary k hk']
    by_cases hki : k = i / 64
    · subst hki
      simp only [or_true, if_true, true_iff]
      refine ⟨hk, fun hc => ?_⟩
      have : ((s.bits[i / 64]).bits ||| ((1#64) <<< (i % 64))).getLsbD (i % 64) = false := by
        rw [hc]; simp
      rw [BitVec.getLsbD_or, getLsbD_one_shl (i % 64) _ hm] at this
      simp at this
    · have : ¬ i / 64 = k := fun h => hki h.symm
      simp [hki, this]

theorem Inv.clear {n s p} (h : Inv n s p) (hn : n ≤ 64) (i : Nat) (hi : i < n * 64) :
    ∃ s', s.clear i = .ok s' ∧ Inv n s' (fun j => if j = i then false else p j) := by
  have hk : i / 64 < s.bits.length := by rw [h.len]; omega
  have hm : i % 64 < 64 := Nat.mod_lt _ (by omega)
  have hk64 : i / 64 < 64 := by rw [h.len] at hk; omega
  have hwords : ∀ k (hk' : k < s.bits.length), ∀ j, j < 64 →
      ((s.bits.set (i / 64) ⟨(s.bits[i / 64]).bits &&& ~~~((1#64) <<< (i % 64))⟩)[k]'(by
        simpa using hk')).bits.getLsbD j =
      (fun j => if j = i then false else p j) (k * 64 + j) := by
    intro k hk' j hj
    simp only [List.getElem_set]
    by_cases hki : i / 64 = k
    · subst hki
      simp only [if_true, BitVec.getLsbD_and, BitVec.getLsbD_not, h.word _ hk j hj,
        getLsbD_one_shl (i % 64) j hj]
      by_cases hji : j = i % 64
      · subst hji
        simp [show i / 64 * 64 + i % 64 = i by omega]
      · simp [hji, hj, show i / 64 * 64 + j ≠ i by omega]
    · simp only [hki, if_false, h.word k hk' j hj]
      simp [show k * 64 + j ≠ i by omega]
  have hlen : i / 64 < (s.bits.set (i / 64)
      ⟨(s.bits[i / 64]).bits &&& ~~~((1#64) <<< (i % 64))⟩).length := by simpa using hk
  simp only [BitSet4096.clear, readAt_of_lt hk, bind, Except.bind, BitSet64.clear, hm,
    if_true, writeAt_of_lt _ hk, hk64, pure, Except.pure, readAt_of_lt hlen,
    List.getElem_set_self]
  by_cases hz : (s.bits[i / 64]).bits &&& ~~~((1#64) <<< (i % 64)) = 0
  · rw [if_pos (by simp [BitSet64.any, hz])]
    refine ⟨_, rfl, by simp [h.len], ?_, ?_⟩
    · intro k hk' j hj; exact hwords k (by simpa using hk') j hj
    · intro k hk'
      simp only [BitVec.getLsbD_and, BitVec.getLsbD_not, getLsbD_one_shl (i / 64) k hk',
        List.length_set, List.getElem_set, Bool.and_eq_true, h.summary k hk']
      by_cases hki : k = i / 64
      · subst hki
        simp [hz]
      · have : ¬ i / 64 = k := fun h => hki h.symm
        simp [hki, this, hk']
  · rw [if_neg (by simpa [BitSet64.any] using hz)]
    refine ⟨_, rfl, by simp [h.len], ?_, ?_⟩
    · intro k hk' j hj; exact hwords k (by simpa using hk') j hj
    · intro k hk'
      simp only [List.length_set, List.getElem_set, h.summary k hk']
      by_cases hki : k = i / 64
      · subst hki
        simp only [if_true]
        refine ⟨fun _ => ⟨hk, hz⟩, fun _ => ⟨hk, fun hc => hz ?_⟩⟩
        rw [hc]; simp
      · have : ¬ i / 64 = k := fun h => hki h.symm
        simp [this]

theorem Inv.setBits {n s p} (h : Inv n s p) (hn0 : 0 < n) (w : BitVec 64) :
    ∃ s', s.setNonzeroBitsFrom64 w = .ok s' ∧ Inv n s' (fun j => w.getLsbD j || p j) := by
  have hk : 0 < s.bits.length := by rw [h.len]; omega
  have hwords : ∀ k (hk' : k < s.bits.length), ∀ j, j < 64 →
      ((s.bits.set 0 ⟨(s.bits[0]).bits ||| w⟩)[k]'(by simpa using hk')).bits.getLsbD j =
      (fun j => w.getLsbD j || p j) (k * 64 + j) := by
    intro k hk' j hj
    simp only [List.getElem_set]
    by_cases hki : 0 = k
    · subst hki
      have := h.word _ hk j hj
      simp only [if_true, BitVec.getLsbD_or, this, Bool.or_comm, Nat.zero_mul, Nat.zero_add]
    · simp only [hki, if_false, h.word k hk' j hj]
      rw [BitVec.getLsbD_of_ge w _ (by omega)]; simp
  simp only [BitSet4096.setNonzeroBitsFrom64, readAt_of_lt hk, bind, Except.bind,
    writeAt_of_lt _ hk, BitSet64.setNonzeroBitsFrom64, BitSet64.set, pure, Except.pure]
  by_cases hw : w = 0
  · rw [if_neg (by simpa using hw)]
    refine ⟨_, rfl, by simp [h.len], ?_, ?_⟩
    · intro k hk' j hj; exact hwords k (by simpa using hk') j hj
    · intro k hk'
      simp only [List.length_set, List.getElem_set, h.summary k hk', hw]
      by_cases hki : 0 = k
      · subst hki; simp [hk]
      · simp [hki]
  · rw [if_pos (by simpa using hw)]
    refine ⟨_, rfl, by simp [h.len], ?_, ?_⟩
    · intro k hk' j hj; exact hwords k (by simpa using hk') j hj
    · intro k hk'
      simp only [List.length_set, List.getElem_set, BitVec.getLsbD_or, Bool.or_eq_true,
        h.summary k hk', getLsbD_one_shl 0 k hk', decide_eq_true_eq]
      by_cases hki : k = 0
      · subst hki
        simp only [or_true, if_true, true_iff]
        refine ⟨hk, fun hc => hw ?_⟩
        have := BitVec.or_eq_zero_iff.mp hc
        exact this.2
      · have : ¬ 0 = k := fun h => hki h.symm
        simp [hki, this]

theorem run4096_inv (n : Nat) (hn0 : 0 < n) (hn : n ≤ 64) (h : List Op)
    (hv : ∀ op ∈ h, op.valid (n * 64)) :
    ∃ s, h.foldlM step4096 (BitSet4096.empty (n * 64)) = .ok s ∧ Inv n s (mem h) := by
  induction h using List.reverseRecOn with
  | nil =>
    refine ⟨_, rfl, by simp [BitSet4096.empty], ?_, ?_⟩
    · intro k hk j hj
      simp [BitSet4096.empty, mem, memRev]
    · intro k hk
      simp [BitSet4096.empty]
  | append_singleton h op ih =>
    obtain ⟨s, hs, hm⟩ := ih (fun o ho => hv o (by simp [ho]))
    have hop := hv op (by simp)
    rw [List.foldlM_append, hs]
    simp only [bind, Except.bind, List.foldlM_cons, List.foldlM_nil]
    cases op with
    | set i =>
      obtain ⟨s', e, hi⟩ := hm.set hn i hop
      exact ⟨s', by simp [step4096, e, pure, Except.pure], hi.congr fun j _ => by rw [mem_append]⟩
    | clear i =>
      obtain ⟨s', e, hi⟩ := hm.clear hn i hop
      exact ⟨s', by simp [step4096, e, pure, Except.pure], hi.congr fun j _ => by rw [mem_append]⟩
    | setBits w =>
      obtain ⟨s', e, hi⟩ := hm.setBits hn0 w
      exact ⟨s', by simp [step4096, e, pure, Except.pure], hi.congr fun j _ => by rw [mem_append]⟩

/-- **C02.** `BitSet4096<kMaxSize>` with `kMaxSize = 64 n`, `1 ≤ n ≤ 64`: after any history of
in-range calls no array access is out of bounds and every query agrees with the abstract set. -/
theorem C02_bitset4096 (n : Nat) (hn0 : 0 < n) (hn : n ≤ 64) (h : List Op)
    (hv : ∀ op ∈ h, op.valid (n * 64)) :
    ∃ s, h.foldlM step4096 (BitSet4096.empty (n * 64)) = .ok s ∧
      (∀ i, i < n * 64 → s.get i = .ok (mem h i)) ∧
      (∃ w, s.get64 = .ok w ∧ ∀ i, i < 64 → w.getLsbD i = mem h i) ∧
      (s.any = true ↔ ∃ i, i < n * 64 ∧ mem h i = true) ∧
      (∀ i, i < n * 64 → mem h i = true → (∀ j, j < i → mem h j = false) → s.first = .ok i) ∧
      s.count = .ok ((List.range (n * 64)).filter (mem h)).length ∧
      (∀ (σ : Type) (f : σ → Nat → M σ) (st : σ),
        s.foreach f st = ((List.range (n * 64)).filter (mem h)).foldlM f st) := by
  obtain ⟨s, hs, hi⟩ := run4096_inv n hn0 hn h hv
  refine ⟨s, hs, fun i hii => hi.get i hii, ?_, hi.any hn, fun i h1 h2 h3 => hi.first hn i h1 h2 h3,
    hi.count hn, fun σ f st => hi.foreach hn f st⟩
  have hk : 0 < s.bits.length := by rw [hi.len]; omega
  refine ⟨(s.bits[0]).bits, by simp [BitSet4096.get64, readAt_of_lt hk, bind, Except.bind, pure,
    Except.pure, BitSet64.get64], ?_⟩
  intro i hi'
  have := hi.word 0 hk i hi'
  simpa using this

example : (∀ op ∈ [Op.set 70, .set 130, .clear 70, .setBits 2, .set 127], op.valid (3 * 64)) ∧
    (List.range (3 * 64)).filter (mem [Op.set 70, .set 130, .clear 70, .setBits 2, .set 127])
      = [1, 127, 130] := by
  constructor
  · intro op hop; simp at hop; rcases hop with rfl | rfl | rfl | rfl | rfl <;> simp [Op.valid]
  · decide +kernel

/-- **C02, negative part (a defect of the code).** When `kMaxSize` is not a multiple of 64, the
documented-valid call `Set(kMaxSize - 1)` on an empty set writes outside `bits_`. -/
theorem C02_partial_word_out_of_bounds (kMaxSize : Nat) (h : kMaxSize % 64 ≠ 0) :
    (BitSet4096.empty kMaxSize).set (kMaxSize - 1) = .error .ub := by
  have : (kMaxSize - 1) / 64 = kMaxSize / 64 := by omega
  simp [BitSet4096.set, BitSet4096.empty, this, readAt, bind, Except.bind]

example : (100 : Nat) % 64 ≠ 0 := by decide

end BitSetSpec
end Hwy
