import Verif.GenMem
import Verif.GenLanes2

/-!
# C56: gather, scatter and partial memory accesses

`base + index` is the position in memory that a lane accesses.  A theorem that says the call returns also says that
it does not access anything outside `mem`; which lanes must be inside is a hypothesis about active lanes only.
-/

namespace Hwy
namespace Emu
open CInt

variable {α : Type}

/-! ### Specification -/

/-- The memory after lanes `i < N` with `act i` were written to `pos i`, in increasing order of `i`:
the last lane that goes to a position wins, all other positions are unchanged. -/
structure Scattered (N : Nat) (act : Nat → Prop) (pos : Nat → Int) (v : Nat → Option α) (mem mem' : List α) : Prop where
  len : mem'.length = mem.length
  last : ∀ i, i < N → act i → (∀ j, i < j → j < N → act j → pos j ≠ pos i) → mem'[(pos i).toNat]? = v i
  others : ∀ p : Nat, (∀ i, i < N → act i → pos i ≠ p) → mem'[p]? = mem[p]?

/-- The same for lanes of `S` bytes each: `b i k` is byte `k` of lane `i`. -/
structure ScatteredBytes (N S : Nat) (pos : Nat → Int) (b : Nat → Nat → Int) (mem mem' : List Int) : Prop where
  len : mem'.length = mem.length
  last : ∀ i, i < N → ∀ k, k < S → (∀ j, i < j → j < N → ¬ (pos j ≤ pos i + k ∧ pos i + k < pos j + S)) →
    mem'[(pos i + k).toNat]? = some (b i k)
  others : ∀ p : Nat, (∀ i, i < N → ¬ (pos i ≤ p ∧ p < pos i + S)) → mem'[p]? = mem[p]?

/-! ### Loops -/

theorem scatter_loop (N : Nat) (act : Nat → Prop) (pos : Nat → Int) (v : Nat → Option α) (mem : List α)
    (body : Nat → List α → M (List α))
    (h1 : ∀ i, i < N → act i → ∃ x, v i = some x ∧ ∀ mem, body i mem = writeOff mem (pos i) x)
    (h0 : ∀ i, i < N → ¬ act i → ∀ mem, body i mem = .ok mem)
    (hp : ∀ i, i < N → act i → 0 ≤ pos i ∧ pos i < mem.length) :
    ∃ mem', forN N body mem = .ok mem' ∧ Scattered N act pos v mem mem' := by
  refine forN_inv N body mem (fun n m => Scattered n act pos v mem m) ⟨rfl, ?_, fun _ _ => rfl⟩ ?_
  · intro i hi
    omega
  · intro i hi m hm
    by_cases ha : act i
    · obtain ⟨x, ex, hb⟩ := h1 i hi ha
      obtain ⟨p0, p1⟩ := hp i hi ha
      refine ⟨m.set (pos i).toNat x, ?_, ?_, ?_, ?_⟩
      · rw [hb]
        unfold writeOff
        rw [if_pos p0]
        exact writeAt_of_lt _ (by rw [hm.len]; omega)
      · rw [List.length_set, hm.len]
      · intro j hj aj hl
        rcases Nat.lt_succ_iff_lt_or_eq.1 hj with h | rfl
        · obtain ⟨q0, q1⟩ := hp j (by omega) aj
          have hne := hl i h (by omega) ha
          rw [List.getElem?_set_ne (by omega)]
          exact hm.last j h aj fun k hk1 hk2 => hl k hk1 (by omega)
        · rw [List.getElem?_set_self (by rw [hm.len]; omega), ex]
      · intro p hq
        have := hq i (by omega) ha
        rw [List.getElem?_set_ne (by omega)]
        exact hm.others p fun j hj => hq j (by omega)
    · refine ⟨m, h0 i hi ha m, hm.len, ?_, ?_⟩
      · intro j hj aj hl
        have : j ≠ i := by rintro rfl; exact ha aj
        exact hm.last j (by omega) aj fun k hk1 hk2 => hl k hk1 (by omega)
      · intro p hq
        exact hm.others p fun j hj => hq j (by omega)

theorem gather_loop (z : α) (N : Nat) (y : Nat → α) (body : Nat → List α → M (List α))
    (h : ∀ i, i < N → ∀ l, body i l = writeAt l i (y i)) :
    ∃ r, forN N body (fresh z N) = .ok r ∧ r.length = N ∧ ∀ i, i < N → r[i]? = some (y i) := by
  obtain ⟨r, e, l, q⟩ := forN_inv N body (fresh z N) (fun n r => r.length = N ∧ ∀ i, i < n → r[i]? = some (y i))
    ⟨by simp [fresh], by omega⟩ (fun i hi r ⟨hl, hr⟩ => by
      refine ⟨r.set i (y i), ?_, by rw [List.length_set, hl], fun j hj => ?_⟩
      · rw [h i hi]
        exact writeAt_of_lt _ (by omega)
      · by_cases c : j = i
        · subst c
          rw [List.getElem?_set_self (by omega)]
        · rw [List.getElem?_set_ne (by omega)]
          exact hr j (by omega))
  exact ⟨r, e, l, q⟩

theorem fresh_some (z : α) {c i : Nat} (h : i < c) : (fresh z c)[i]? = some z := by
  simp [fresh, h]

theorem forN_congr2 {σ : Type} {n : Nat} {f g : Nat → σ → M σ} {s : σ} (h : ∀ i, i < n → ∀ s, f i s = g i s) :
    forN n f s = forN n g s := by
  induction n with
  | zero => rfl
  | succ n ih =>
    rw [forN_succ, forN_succ, ih fun i hi => h i (by omega)]
    congr 1
    funext s
    exact h n (by omega) s

/-- A local copy of the lanes. -/
theorem local_copy (z : α) {c N : Nat} (hN : N ≤ c) {v : List α} (hv : v.length = c) :
    ∃ r, Store N v (fresh z N) = .ok r ∧ ∀ i, i < N → ∃ x, v[i]? = some x ∧ readAt r i = .ok x := by
  obtain ⟨r, e, l, h⟩ := C47_store hN hv (p := fresh z N) (by simp [fresh])
  refine ⟨r, e, fun i hi => ?_⟩
  have := h i
  rw [if_pos hi] at this
  have l' : r.length = N := by rw [l]; simp [fresh]
  refine ⟨r[i]'(by omega), ?_, readAt_of_lt (by omega)⟩
  rw [← this, List.getElem?_eq_getElem]

theorem local_lanes {ti : Ty} {N : Nat} (hN : N ≤ cap ti) {v : List Int} (hv : Reg ti v) :
    ∃ r, Store N v (fresh 0 N) = .ok r ∧ ∀ i, i < N → readAt r i = .ok (lane v i) := by
  obtain ⟨r, e, h⟩ := local_copy (0 : Int) hN hv.len
  refine ⟨r, e, fun i hi => ?_⟩
  obtain ⟨x, e1, e2⟩ := h i hi
  rw [e2, lane_of_some e1]

/-- A local copy of a mask. -/
theorem local_mask {ti : Ty} (h : ti ∈ laneTys) {N : Nat} (hN : N ≤ cap ti) {m : List Int} {b : Nat → Bool} (hm : IsMask ti N m b) :
    ∃ r, Store N (vecFromMask ti m) (fresh 0 N) = .ok r ∧
      ∀ i, i < N → ∃ x, readAt r i = .ok x ∧ (x ≠ 0 ↔ b i = true) := by
  have hv := is_vecFromMask h hm
  obtain ⟨r, e, hr⟩ := local_lanes hN hv.1
  refine ⟨r, e, fun i hi => ⟨_, hr i hi, ?_⟩⟩
  rw [hv.2 i hi]
  have : ti.wrap (-1) ≠ 0 := by
    have : ∀ t ∈ laneTys, t.wrap (-1) ≠ 0 := by decide +kernel
    exact this ti h
  by_cases hb : b i = true
  · simp only [hb, if_true]; exact ⟨fun _ => trivial, fun _ => this⟩
  · simp only [hb]; exact ⟨fun h => absurd rfl h, fun h => absurd h (by decide)⟩

theorem readOff_some {mem : List α} {a : Int} {x : α} (h0 : 0 ≤ a) (h : mem[a.toNat]? = some x) : readOff mem a = .ok x := by
  unfold readOff readAt
  rw [if_pos h0, h]

theorem mem_some {mem : List α} {a : Int} (h0 : 0 ≤ a) (h : a < mem.length) : ∃ x, mem[a.toNat]? = some x :=
  ⟨mem[a.toNat]'(by omega), List.getElem?_eq_getElem (by omega)⟩

theorem load_runs (z : α) {c N : Nat} (hN : N ≤ c) {l : List α} (hl : l.length = N) {g : Nat → Option α}
    (h : ∀ i, i < N → l[i]? = g i) : Gives (Load z c N l) c N g := by
  obtain ⟨r, e, l', hr⟩ := C47_load z hN (p := l) (by omega)
  exact ⟨r, e, l', fun i hi => by rw [hr i hi]; exact h i hi⟩

/-! ### Scatter -/

section
variable {ti : Ty} {N : Nat} (hN : N ≤ cap ti) {v : List α} (hv : v.length = cap ti) {index : List Int} (hi : Reg ti index)
  {mem : List α} (base : Nat)
include hN hv hi

/-- `ScatterIndex`: `base[index[i]] = v[i]` for all lanes, the highest lane winning. -/
theorem C56_scatter_index (z : α)
    (hp : ∀ i, i < N → 0 ≤ base + lane index i ∧ base + lane index i < mem.length) :
    ∃ mem', ScatterIndex z N v mem base index = .ok mem' ∧
      Scattered N (fun _ => True) (fun i => base + lane index i) (fun i => v[i]?) mem mem' := by
  obtain ⟨r, e, hr⟩ := local_copy z hN hv
  obtain ⟨s, e2, hs⟩ := local_lanes hN hi
  unfold ScatterIndex
  rw [e, ok_bind', e2, ok_bind']
  refine scatter_loop N _ _ _ mem _ (fun i h _ => ?_) (fun _ _ h => absurd trivial h) fun i h _ => hp i h
  obtain ⟨x, ex, hx⟩ := hr i h
  refine ⟨x, ex, fun mem => ?_⟩
  rw [hs i h, ok_bind', hx, ok_bind']

/-- `MaskedScatterIndex`: only lanes whose mask is true are accessed. -/
theorem C56_masked_scatter_index (h : ti ∈ laneTys) (z : α) {m : List Int} {b : Nat → Bool} (hm : IsMask ti N m b)
    (hp : ∀ i, i < N → b i = true → 0 ≤ base + lane index i ∧ base + lane index i < mem.length) :
    ∃ mem', MaskedScatterIndex z ti N v m mem base index = .ok mem' ∧
      Scattered N (fun i => b i = true) (fun i => base + lane index i) (fun i => v[i]?) mem mem' := by
  obtain ⟨r, e, hr⟩ := local_copy z hN hv
  obtain ⟨s, e2, hs⟩ := local_lanes hN hi
  obtain ⟨q, e3, hq⟩ := local_mask h hN hm
  unfold MaskedScatterIndex
  rw [e, ok_bind', e2, ok_bind', e3, ok_bind']
  refine scatter_loop N _ _ _ mem _ (fun i hi' ha => ?_) (fun i hi' ha mem => ?_) hp
  · obtain ⟨x, ex, hx⟩ := hr i hi'
    obtain ⟨y, ey, hy⟩ := hq i hi'
    refine ⟨x, ex, fun mem => ?_⟩
    rw [ey, ok_bind', if_pos (hy.2 ha), hs i hi', ok_bind', hx, ok_bind']
  · obtain ⟨y, ey, hy⟩ := hq i hi'
    rw [ey, ok_bind', if_neg (fun c => ha (hy.1 c))]
    rfl

/-- `ScatterIndexN`: only the first `n` lanes. -/
theorem C56_scatter_index_n (n : Nat)
    (hp : ∀ i, i < N → i < n → 0 ≤ base + lane index i ∧ base + lane index i < mem.length) :
    ∃ mem', ScatterIndexN N v mem base index n = .ok mem' ∧
      Scattered N (fun i => i < n) (fun i => base + lane index i) (fun i => v[i]?) mem mem' := by
  refine scatter_loop N _ _ _ mem _ (fun i hi' ha => ?_) (fun i hi' ha mem => ?_) hp
  · refine ⟨v[i]'(by omega), List.getElem?_eq_getElem _, fun mem => ?_⟩
    rw [if_pos ha]
    unfold ExtractLane
    rw [readAt_some (lane_some (by rw [hi.len]; omega)), ok_bind', readAt_of_lt (by omega), ok_bind']
  · rw [if_neg ha]
    rfl
end

/-! ### Gather -/

section
variable {ti : Ty} {N : Nat} (hN : N ≤ cap ti) {index : List Int} (hi : Reg ti index) {mem : List α} (base : Nat) (z : α)
include hN hi

/-- `GatherIndex`: lane `i` is `base[index[i]]`. -/
theorem C56_gather_index (hp : ∀ i, i < N → 0 ≤ lane index i ∧ base + lane index i < mem.length) :
    Gives (GatherIndex z (cap ti) N mem base index) (cap ti) N (fun i => mem[(base + lane index i).toNat]?) := by
  obtain ⟨s, e2, hs⟩ := local_lanes hN hi
  have hx : ∀ i, ∃ x, i < N → mem[(base + lane index i).toNat]? = some x := fun i => by
    by_cases c : i < N
    · obtain ⟨x, hx⟩ := mem_some (mem := mem) (a := base + lane index i) (by have := hp i c; omega) (hp i c).2
      exact ⟨x, fun _ => hx⟩
    · exact ⟨z, fun h => absurd h c⟩
  choose y hy using hx
  unfold GatherIndex
  rw [e2, ok_bind']
  obtain ⟨r, er, lr, hr⟩ := gather_loop z N y (fun i lanes => do
    let x ← readAt s i
    dassert (decide (0 ≤ x))
    writeAt lanes i (← readOff mem (base + x))) fun i h l => by
      have h0 := hp i h
      rw [hs i h, ok_bind']
      unfold dassert
      rw [if_pos (by simpa using h0.1), ok_bind', readOff_some (by omega) (hy i h), ok_bind']
  rw [er, ok_bind']
  exact load_runs z hN lr fun i h => by rw [hr i h, hy i h]

/-- `MaskedGatherIndexOr`: memory is accessed only for lanes whose mask is true, the others are `no[i]`.
Negative indices violate an assertion even in lanes whose mask is false (`C56_finding_masked_gather_negative`). -/
theorem C56_masked_gather_index_or (h : ti ∈ laneTys) {m : List Int} {b : Nat → Bool} (hm : IsMask ti N m b)
    {no : List α} (hno : no.length = cap ti) (hp : ∀ i, i < N → 0 ≤ lane index i)
    (hq : ∀ i, i < N → b i = true → base + lane index i < mem.length) :
    Gives (MaskedGatherIndexOr z ti (cap ti) N no m mem base index) (cap ti) N
      (fun i => if b i then mem[(base + lane index i).toNat]? else no[i]?) := by
  obtain ⟨s, e2, hs⟩ := local_lanes hN hi
  obtain ⟨q, e3, hq'⟩ := local_mask h hN hm
  obtain ⟨r, e, hr⟩ := local_copy z hN hno
  have hx : ∀ i, ∃ x, i < N → (if b i then mem[(base + lane index i).toNat]? else no[i]?) = some x := fun i => by
    by_cases c : i < N
    · by_cases cb : b i = true
      · obtain ⟨x, hx⟩ := mem_some (mem := mem) (a := base + lane index i) (by have := hp i c; omega) (hq i c cb)
        exact ⟨x, fun _ => by rw [if_pos cb, hx]⟩
      · obtain ⟨x, ex, -⟩ := hr i c
        exact ⟨x, fun _ => by rw [if_neg cb, ex]⟩
    · exact ⟨z, fun h => absurd h c⟩
  choose y hy using hx
  unfold MaskedGatherIndexOr
  rw [e2, ok_bind', e3, ok_bind', e, ok_bind']
  obtain ⟨r, er, lr, hr⟩ := gather_loop z N y (fun i lanes => do
    let x ← readAt s i
    dassert (decide (0 ≤ x))
    let b ← readAt q i
    let y ← if b ≠ 0 then readOff mem (base + x) else readAt r i
    writeAt lanes i y) fun i hi' l => by
      have h0 := hp i hi'
      obtain ⟨w, ew, hw⟩ := hq' i hi'
      rw [hs i hi', ok_bind']
      unfold dassert
      rw [if_pos (by simpa using h0), ok_bind', ew, ok_bind']
      by_cases cb : b i = true
      · have := hy i hi'
        rw [if_pos cb] at this
        rw [if_pos (hw.2 cb), readOff_some (by omega) this, ok_bind']
      · have := hy i hi'
        rw [if_neg cb] at this
        obtain ⟨x, ex, hx⟩ := hr i hi'
        rw [if_neg (fun c => cb (hw.1 c)), hx, ok_bind']
        rw [ex] at this
        cases this
        rfl
  rw [er, ok_bind']
  exact load_runs z hN lr fun i h => by rw [hr i h, hy i h]

/-- `MaskedGatherIndex`: zero where the mask is false. -/
theorem C56_masked_gather_index (h : ti ∈ laneTys) {m : List Int} {b : Nat → Bool} (hm : IsMask ti N m b)
    (hp : ∀ i, i < N → 0 ≤ lane index i) (hq : ∀ i, i < N → b i = true → base + lane index i < mem.length) :
    Gives (MaskedGatherIndex z ti (cap ti) N m mem base index) (cap ti) N
      (fun i => if b i then mem[(base + lane index i).toNat]? else some z) := by
  have key := C56_masked_gather_index_or hN hi base z h hm (no := fresh z (cap ti)) (by simp [fresh]) hp hq
  obtain ⟨s, e2, hs⟩ := local_lanes hN hi
  obtain ⟨q, e3, hq'⟩ := local_mask h hN hm
  obtain ⟨r, e, hr⟩ := local_copy z hN (v := fresh z (cap ti)) (by simp [fresh])
  have hz : ∀ i, i < N → readAt r i = .ok z := fun i hi' => by
    obtain ⟨x, ex, hx⟩ := hr i hi'
    have : (fresh z (cap ti))[i]? = some z := fresh_some z (by omega)
    rw [this] at ex
    cases ex
    exact hx
  have eq : MaskedGatherIndex z ti (cap ti) N m mem base index =
      MaskedGatherIndexOr z ti (cap ti) N (fresh z (cap ti)) m mem base index := by
    unfold MaskedGatherIndex MaskedGatherIndexOr
    rw [e2, ok_bind', ok_bind', e3, ok_bind', ok_bind', e, ok_bind']
    congr 1
    refine forN_congr2 fun i hi' l => ?_
    dsimp only
    rw [hz i hi']
  rw [eq]
  obtain ⟨r, e, l, hr⟩ := key
  refine ⟨r, e, l, fun i hi' => ?_⟩
  rw [hr i hi']
  beta_reduce
  have : (fresh z (cap ti))[i]? = some z := fresh_some z (by omega)
  rw [this]

/-- `GatherIndexNOr`: the first `n` lanes are gathered, the others are `no[i]`; indices of the others are not used. -/
theorem C56_gather_index_n_or (n : Nat) {no : List α} (hno : no.length = cap ti)
    (hp : ∀ i, i < N → i < n → 0 ≤ base + lane index i ∧ base + lane index i < mem.length) :
    Gives (GatherIndexNOr N no mem base index n) (cap ti) (cap ti)
      (fun i => if i < n ∧ i < N then mem[(base + lane index i).toNat]? else no[i]?) := by
  unfold GatherIndexNOr
  obtain ⟨r, e, l, hr⟩ := forN_inv N (fun i v => do
    if i < n then InsertLane v i (← readOff mem (base + (← ExtractLane index i))) else return v) no
    (fun k r => r.length = cap ti ∧ ∀ i, r[i]? = if i < n ∧ i < k then mem[(base + lane index i).toNat]? else no[i]?)
    ⟨hno, fun i => by rw [if_neg (by omega)]⟩ (fun i hi' r ⟨hl, hr⟩ => by
      by_cases c : i < n
      · obtain ⟨p0, p1⟩ := hp i hi' c
        obtain ⟨x, ex⟩ := mem_some p0 p1
        refine ⟨r.set i x, ?_, by rw [List.length_set, hl], fun j => ?_⟩
        · rw [if_pos c]
          unfold ExtractLane InsertLane
          rw [readAt_some (lane_some (by rw [hi.len]; omega)), ok_bind', readOff_some p0 ex, ok_bind']
          exact writeAt_of_lt _ (by omega)
        · by_cases cj : j = i
          · subst cj
            rw [List.getElem?_set_self (by omega), if_pos ⟨c, by omega⟩, ex]
          · rw [List.getElem?_set_ne (by omega), hr j]
            congr 1
            simp only [eq_iff_iff]
            omega
      · refine ⟨r, by rw [if_neg c]; rfl, hl, fun j => ?_⟩
        rw [hr j]
        congr 1
        simp only [eq_iff_iff]
        omega)
  exact ⟨r, e, l, fun i _ => hr i⟩

/-- `GatherIndexN`: the remaining lanes are zero. -/
theorem C56_gather_index_n (n : Nat)
    (hp : ∀ i, i < N → i < n → 0 ≤ base + lane index i ∧ base + lane index i < mem.length) :
    Gives (GatherIndexN z (cap ti) N mem base index n) (cap ti) (cap ti)
      (fun i => if i < n ∧ i < N then mem[(base + lane index i).toNat]? else if i < cap ti then some z else none) := by
  obtain ⟨r, e, l, hr⟩ := C56_gather_index_n_or hN hi base n (no := fresh z (cap ti)) (by simp [fresh]) hp
  refine ⟨r, e, l, fun i hi' => ?_⟩
  rw [hr i hi']
  beta_reduce
  rw [if_pos hi']
  have : (fresh z (cap ti))[i]? = some z := fresh_some z (by omega)
  rw [this]
end

end Emu
end Hwy
