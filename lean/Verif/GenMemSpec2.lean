import Verif.GenMemSpec

/-!
# C56: byte offsets, masked loads, safe copies
-/

namespace Hwy
namespace Emu
open CInt

variable {α : Type}

/-! ### Bytes of a lane -/

theorem bytes_get {t : Ty} {x : Int} {k : Nat} (hk : k < t.bits / 8) : (bytesOfLane t x)[k]? = some (x / 256 ^ k % 256) := by
  simp [bytesOfLane, hk]

theorem bytes_len (t : Ty) (x : Int) : (bytesOfLane t x).length = t.bits / 8 := by simp [bytesOfLane]

theorem fold_byte : ∀ (b : List Int), (∀ x ∈ b, 0 ≤ x ∧ x ≤ 255) → ∀ k, k < b.length →
    some (b.foldr (fun x acc => x + 256 * acc) 0 / 256 ^ k % 256) = b[k]? := by
  intro b
  induction b with
  | nil => intro _ k hk; simp at hk
  | cons x b ih =>
    intro hb k hk
    obtain ⟨h0, h1⟩ := hb x (by simp)
    rw [List.foldr_cons]
    cases k with
    | zero =>
      rw [pow_zero, Int.ediv_one, Int.add_mul_emod_self_left, Int.emod_eq_of_lt h0 (by omega)]
      rfl
    | succ k =>
      have : (x + 256 * List.foldr (fun x acc => x + 256 * acc) 0 b) / 256 ^ (k + 1) =
          List.foldr (fun x acc => x + 256 * acc) 0 b / 256 ^ k := by
        rw [pow_succ', ← Int.ediv_ediv_of_nonneg (by norm_num)]
        congr 1
        omega
      rw [this, ih (fun y hy => hb y (by simp [hy])) k (by simpa using hk)]
      simp

theorem byte_congr {x y : Int} {S k : Nat} (h : x ≡ y [ZMOD 256 ^ S]) (hk : k < S) : x / 256 ^ k % 256 = y / 256 ^ k % 256 := by
  obtain ⟨q, hq⟩ := (Int.modEq_iff_dvd.1 h)
  obtain ⟨d, rfl⟩ : ∃ d, S = k + 1 + d := ⟨S - (k + 1), by omega⟩
  have : y = x + 256 ^ k * (256 * (256 ^ d * q)) := by
    have e : (256 : Int) ^ (k + 1 + d) = 256 ^ k * (256 * 256 ^ d) := by rw [pow_add, pow_succ]; ring
    rw [e] at hq
    linarith
  rw [this, Int.add_mul_ediv_left _ _ (by positivity), Int.add_mul_emod_self_left]

theorem lane_bytes_facts {t : Ty} (h : t ∈ laneTys) : (2 : Int) ^ t.bits = 256 ^ (t.bits / 8) := by
  have : ∀ t ∈ laneTys, (2 : Int) ^ t.bits = 256 ^ (t.bits / 8) := by decide +kernel
  exact this t h

theorem of_bytes {t : Ty} (h : t ∈ laneTys) {b : List Int} (hb : ∀ x ∈ b, 0 ≤ x ∧ x ≤ 255) (hl : b.length = t.bits / 8) :
    t.Has (laneOfBytes t b) ∧ ∀ k, k < t.bits / 8 → b[k]? = some (laneOfBytes t b / 256 ^ k % 256) := by
  refine ⟨has_wrap' h _, fun k hk => ?_⟩
  rw [← fold_byte b hb k (by omega)]
  have := modEq_wrap t (b.foldr (fun x acc => x + 256 * acc) 0)
  rw [lane_bytes_facts h] at this
  rw [show laneOfBytes t b = t.wrap (b.foldr (fun x acc => x + 256 * acc) 0) from rfl, byte_congr this hk]

/-! ### Offsets -/

/-- `ScatterOffset`: the bytes of lane `i` go to `base + offset[i]`, later lanes overwriting earlier ones. -/
theorem C56_scatter_offset {t ti : Ty} (hb : ti.bits = t.bits) {N : Nat} (hN : N ≤ cap t) {v offset : List Int}
    (hv : Reg t v) (ho : Reg ti offset) {mem : List Int} (base : Nat)
    (hp : ∀ i, i < N → 0 ≤ base + lane offset i ∧ base + lane offset i + (t.bits / 8 : Nat) ≤ mem.length) :
    ∃ mem', ScatterOffset t N v mem base offset = .ok mem' ∧
      ScatteredBytes N (t.bits / 8) (fun i => base + lane offset i) (fun i k => lane v i / 256 ^ k % 256) mem mem' := by
  have hc : cap ti = cap t := by unfold cap; rw [hb]
  obtain ⟨r, e, hr⟩ := local_lanes hN hv
  obtain ⟨s, e2, hs⟩ := local_lanes (hc ▸ hN) ho
  unfold ScatterOffset
  rw [e, ok_bind', e2, ok_bind']
  generalize hS : t.bits / 8 = S at hp
  refine forN_inv N _ mem (fun n m => ScatteredBytes n S (fun i => base + lane offset i) (fun i k => lane v i / 256 ^ k % 256) mem m)
    ⟨rfl, by omega, fun _ _ => rfl⟩ fun i hi m hm => ?_
  obtain ⟨p0, p1⟩ := hp i hi
  have hl := hm.len
  obtain ⟨q, eq, lq, hq⟩ := copyLanes_eq (src := bytesOfLane t (lane v i)) (so := 0) (dst := m)
    (d0 := (base + lane offset i).toNat) (n := S) (by rw [bytes_len]; omega) (by omega)
  refine ⟨q, ?_, ?_, ?_, ?_⟩
  · rw [hr i hi, ok_bind', hs i hi, ok_bind']
    unfold putBytes
    rw [if_pos p0, bytes_len, hS, eq]
  · rw [lq, hl]
  · intro j hj k hk hlast
    rw [hq]
    rcases Nat.lt_succ_iff_lt_or_eq.1 hj with h | rfl
    · have := hlast i h (by omega)
      have p2 := hp j (by omega)
      rw [if_neg (by omega)]
      exact hm.last j h k hk fun l hl1 hl2 => hlast l hl1 (by omega)
    · rw [if_pos (by omega), ← bytes_get (t := t) (by omega)]
      congr 1
      have e0 : ((base : Int) + lane offset j).toNat = base + lane offset j := Int.toNat_of_nonneg p0
      omega
  · intro p hne
    have := hne i (by omega)
    rw [hq, if_neg (by omega)]
    exact hm.others p fun j hj => hne j (by omega)

/-- `GatherOffset`: lane `i` consists of the bytes at `base + offset[i]`. -/
theorem C56_gather_offset {t ti : Ty} (h : t ∈ laneTys) (hb : ti.bits = t.bits) {N : Nat} (hN : N ≤ cap t) {offset : List Int}
    (ho : Reg ti offset) {mem : List Int} (hm : ∀ x ∈ mem, 0 ≤ x ∧ x ≤ 255) (base : Nat)
    (hp : ∀ i, i < N → 0 ≤ lane offset i ∧ base + lane offset i + (t.bits / 8 : Nat) ≤ mem.length) :
    Lanes t N (GatherOffset t N mem base offset) (fun i x => ∀ k, k < t.bits / 8 →
      mem[(base + lane offset i).toNat + k]? = some (x / 256 ^ k % 256)) := by
  have hc : cap ti = cap t := by unfold cap; rw [hb]
  obtain ⟨s, e2, hs⟩ := local_lanes (hc ▸ hN) ho
  have hg : ∀ i, ∃ y, i < N → (do
      let b ← getBytes (t.bits / 8) mem (base + lane offset i)
      return laneOfBytes t b : M Int) = .ok y ∧ t.Has y ∧
      ∀ k, k < t.bits / 8 → mem[(base + lane offset i).toNat + k]? = some (y / 256 ^ k % 256) := by
    intro i
    by_cases c : i < N
    · obtain ⟨p0, p1⟩ := hp i c
      obtain ⟨q, eq, lq, hq⟩ := copyLanes_eq (src := mem) (so := (base + lane offset i).toNat) (dst := fresh (0 : Int) (t.bits / 8))
        (d0 := 0) (n := t.bits / 8) (by omega) (by simp [fresh])
      have lq' : q.length = t.bits / 8 := by rw [lq]; simp [fresh]
      have hqk : ∀ k, k < t.bits / 8 → q[k]? = mem[(base + lane offset i).toNat + k]? := fun k hk => by
        rw [hq, if_pos (by omega), Nat.sub_zero]
      have hq2 : ∀ x ∈ q, 0 ≤ x ∧ x ≤ 255 := by
        intro x hx
        obtain ⟨k, hk, rfl⟩ := List.getElem_of_mem hx
        have := hqk k (by omega)
        rw [List.getElem?_eq_getElem hk] at this
        exact hm _ (List.mem_of_getElem? this.symm)
      obtain ⟨g1, g2⟩ := of_bytes h hq2 lq'
      refine ⟨laneOfBytes t q, fun _ => ⟨?_, g1, fun k hk => by rw [← hqk k hk, g2 k hk]⟩⟩
      unfold getBytes
      rw [if_pos (by omega), eq, ok_bind']
      rfl
    · exact ⟨0, fun h => absurd h c⟩
  choose y hy using hg
  unfold GatherOffset
  rw [e2, ok_bind']
  obtain ⟨r, er, lr, hr⟩ := gather_loop (0 : Int) N y (fun i lanes => do
    let o ← readAt s i
    dassert (decide (0 ≤ o))
    writeAt lanes i (laneOfBytes t (← getBytes (t.bits / 8) mem (base + o)))) fun i hi l => by
      rw [hs i hi, ok_bind']
      unfold dassert
      rw [if_pos (by simpa using (hp i hi).1), ok_bind']
      have := (hy i hi).1
      cases hgb : getBytes (t.bits / 8) mem (base + lane offset i) with
      | error e => rw [hgb] at this; cases this
      | ok b =>
        rw [hgb, ok_bind'] at this
        have e : laneOfBytes t b = y i := by injection this
        rw [ok_bind', e]
  rw [er, ok_bind']
  obtain ⟨w, ew, lw, hw⟩ := load_runs (0 : Int) hN lr hr
  refine ⟨w, ew, ⟨lw, ?_⟩, fun i hi => ?_⟩
  · refine (copyLanes_all ew (fun x hx => ?_) (fresh_all (has_zero h)))
    obtain ⟨k, hk, rfl⟩ := List.getElem_of_mem hx
    have := hr k (by omega)
    rw [List.getElem?_eq_getElem hk] at this
    rw [Option.some.inj this]
    exact (hy k (by omega)).2.1
  · rw [lane_of_some (hw i hi)]
    exact (hy i hi).2.2

/-! ### Loads and stores -/

/-- `MaskedLoad`: zero where the mask is false. All `N` lanes must be readable on this target. -/
theorem C56_masked_load {t : Ty} (h : t ∈ laneTys) {N : Nat} (hN : N ≤ cap t) {m p : List Int} {b : Nat → Bool} (hm : IsMask t N m b)
    (hp : N ≤ p.length) (hh : ∀ x ∈ p, t.Has x) :
    Lanes t N (MaskedLoad t N m p) (fun i x => x = if b i then lane p i else 0) := by
  have hl : Runs t N (Load 0 (cap t) N p) (lane p) :=
    (C47_load (0 : Int) hN hp).runs (fun r e => copyLanes_all e hh (fresh_all (has_zero h))) fun i hi => lane_some (by omega)
  exact (Runs.bind hl fun v hv => xitez h hN hm hv).lanes hN fun _ _ _ => rfl

/-- `MaskedLoadOr`: `v[i]` where the mask is false. -/
theorem C56_masked_load_or {t : Ty} (h : t ∈ laneTys) {N : Nat} (hN : N ≤ cap t) {v m p : List Int} {b : Nat → Bool}
    (hm : IsMask t N m b) (hv : Reg t v) (hp : N ≤ p.length) (hh : ∀ x ∈ p, t.Has x) :
    Lanes t N (MaskedLoadOr t N v m p) (fun i x => x = if b i then lane p i else lane v i) := by
  have hl : Runs t N (Load 0 (cap t) N p) (lane p) :=
    (C47_load (0 : Int) hN hp).runs (fun r e => copyLanes_all e hh (fresh_all (has_zero h))) fun i hi => lane_some (by omega)
  exact (Runs.bind hl fun x hx => xite h hN hm hx (Is.refl hv)).lanes hN fun _ _ _ => rfl

/-- `SafeFillN` writes exactly `to[0, num)`. -/
theorem C56_safe_fill_n {num : Nat} (x : α) {dst : List α} (hd : num ≤ dst.length) :
    ∃ r, SafeFillN num x dst = .ok r ∧ r.length = dst.length ∧ ∀ i, r[i]? = if i < num then some x else dst[i]? := by
  unfold SafeFillN
  refine forN_inv num _ dst (fun n r => r.length = dst.length ∧ ∀ i, r[i]? = if i < n then some x else dst[i]?)
    ⟨rfl, fun i => rfl⟩ fun i hi r ⟨hl, hr⟩ => ⟨r.set i x, writeAt_of_lt _ (by omega), by simpa using hl, fun j => ?_⟩
  by_cases c : j = i
  · subst c
    rw [List.getElem?_set_self (by omega), if_pos (by omega)]
  · rw [List.getElem?_set_ne (by omega), hr j]
    congr 1
    simp only [eq_iff_iff]
    omega

/-- `SafeCopyN` copies exactly `num` elements and reads no others. -/
theorem C56_safe_copy_n {num : Nat} {src dst : List α} (hs : num ≤ src.length) (hd : num ≤ dst.length) :
    ∃ r, SafeCopyN num src dst = .ok r ∧ r.length = dst.length ∧ ∀ i, r[i]? = if i < num then src[i]? else dst[i]? := by
  obtain ⟨r, e, l, h⟩ := copyLanes_eq (src := src) (so := 0) (dst := dst) (d0 := 0) (n := num) (by omega) (by omega)
  refine ⟨r, ?_, l, fun i => by rw [h]; simp⟩
  rw [← e]
  unfold SafeCopyN copyLanes
  simp only [Nat.zero_add]

/-- `TruncateStore`: the low bits of each lane. -/
theorem C56_truncate_store {tF tT : Ty} (hF : tF ∈ laneTys) (hT : tT ∈ laneTys) (hb : tT.bits < tF.bits) (hu : tT.sgn = false)
    {N : Nat} (hN : N ≤ cap tF) {v p : List Int} (hv : Reg tF v) (hp : N ≤ p.length) :
    ∃ r, TruncateStore tF tT N v p = .ok r ∧ r.length = p.length ∧
      ∀ i, r[i]? = if i < N then some (lane v i % 2 ^ tT.bits) else p[i]? := by
  obtain ⟨w, e, hw⟩ := xtruncate (Is.refl (N := N) hv) hF hT hb hu hN
  have hc := cap_le hT hb.le
  obtain ⟨r, e2, l, h⟩ := C47_store (c := cap tT) (N := N) (by omega) hw.1.len hp
  refine ⟨r, ?_, l, fun i => ?_⟩
  · unfold TruncateStore
    rw [e, ok_bind', e2]
  · rw [h i]
    by_cases c : i < N
    · rw [if_pos c, if_pos c, lane_some (by rw [hw.1.len]; omega), hw.2 i c]
    · rw [if_neg c, if_neg c]

/-- Code finding: the documentation allows any index in lanes whose mask is false ("does not fault"), but the generic
`MaskedGatherIndex(Or)` asserts that every index is non-negative before looking at the mask. -/
theorem C56_finding_masked_gather_negative {ti : Ty} {N : Nat} (hN : N ≤ cap ti) {index : List Int} (hi : Reg ti index)
    {mem no : List α} (base : Nat) (z : α) (h : ti ∈ laneTys) {m : List Int} {b : Nat → Bool} (hm : IsMask ti N m b)
    (hno : no.length = cap ti) (h0 : 0 < N) (hneg : lane index 0 < 0) :
    MaskedGatherIndexOr z ti (cap ti) N no m mem base index = .error .ub ∧
    MaskedGatherIndex z ti (cap ti) N m mem base index = .error .ub := by
  obtain ⟨s, e2, hs⟩ := local_lanes hN hi
  obtain ⟨q, e3, -⟩ := local_mask h hN hm
  obtain ⟨r, e, -⟩ := local_copy z hN hno
  have key : ∀ (n : Nat), 0 < n → ∀ (g : Nat → Int → List α → M (List α)) (l : List α),
      forN n (fun i l => do
        let x ← readAt s i
        dassert (decide (0 ≤ x))
        g i x l) l = .error .ub := by
    intro n
    induction n with
    | zero => intro h; omega
    | succ n ih =>
      intro _ g l
      rw [forN_succ]
      by_cases c : n = 0
      · subst c
        rw [forN_zero, ok_bind', hs 0 h0, ok_bind']
        unfold dassert
        rw [if_neg (by simpa using hneg)]
        rfl
      · rw [ih (by omega) g l]
        rfl
  constructor
  · unfold MaskedGatherIndexOr
    rw [e2, ok_bind', e3, ok_bind', e, ok_bind', key N h0 (fun i x lanes => do
      let b ← readAt q i
      let y ← if b ≠ 0 then readOff mem (base + x) else readAt r i
      writeAt lanes i y)]
    rfl
  · unfold MaskedGatherIndex
    rw [e2, ok_bind', e3, ok_bind', key N h0 (fun i x lanes => do
      let b ← readAt q i
      let y ← if b ≠ 0 then readOff mem (base + x) else .ok z
      writeAt lanes i y)]
    rfl

end Emu
end Hwy
