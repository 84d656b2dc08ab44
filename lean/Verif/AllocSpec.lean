import Verif.Alloc
import Mathlib.Tactic.Ring
import Mathlib.Tactic.Linarith

/-! # C30: aligned allocation layout; C41: AlignedNDArray rows -/

namespace Hwy
namespace Alloc

/-- Well-formed configurations: powers of two, `kAlignment` divides `kAlias` and can hold a header. -/
structure Cfg.ok (c : Cfg) : Prop where
  align_pow : ∃ a, 4 ≤ a ∧ c.align = 2 ^ a
  alias_pow : ∃ b, b ≤ 32 ∧ c.alias = 2 ^ b
  dvd : c.align ∣ c.alias

theorem x86_ok : Cfg.x86.ok := ⟨⟨7, by decide, rfl⟩, ⟨10, by decide, rfl⟩, ⟨8, rfl⟩⟩
theorem other_ok : Cfg.other.ok := ⟨⟨7, by decide, rfl⟩, ⟨7, by decide, rfl⟩, ⟨1, rfl⟩⟩
theorem riscv_ok : Cfg.riscv.ok := ⟨⟨12, by decide, rfl⟩, ⟨12, by decide, rfl⟩, ⟨1, rfl⟩⟩

theorem and_mask (x k : Nat) (hx : x < 2 ^ 64) (hk : k ≤ 64) :
    x &&& (2 ^ 64 - 1 - (2 ^ k - 1)) = x / 2 ^ k * 2 ^ k := by
  have hk2 : 2 ^ k ≤ 2 ^ 64 := Nat.pow_le_pow_right (by decide) hk
  have hp : 0 < 2 ^ k := Nat.two_pow_pos k
  have e : 2 ^ 64 - 1 - (2 ^ k - 1) = 2 ^ 64 - ((2 ^ k - 1) + 1) := by omega
  rw [e]
  apply Nat.eq_of_testBit_eq
  intro i
  rw [Nat.testBit_and, Nat.testBit_two_pow_sub_succ (by omega), Nat.testBit_two_pow_sub_one,
    Nat.testBit_mul_two_pow, Nat.testBit_div_two_pow]
  by_cases h1 : i < k
  · simp [h1, Nat.not_le.mpr h1]
  · have h1' : k ≤ i := by omega
    rw [show i - k + k = i by omega]
    by_cases h2 : i < 64
    · simp [h1, h1', h2]
    · have : x.testBit i = false := by
        apply Nat.testBit_lt_two_pow
        exact Nat.lt_of_lt_of_le hx (Nat.pow_le_pow_right (by decide) (by omega))
      simp [this]

theorem offset_ok (c : Cfg) (hc : c.ok) (next : Nat) :
    c.align ∣ headerOffset c (nextAlignedOffset c next) ∧ 16 ≤ headerOffset c (nextAlignedOffset c next) ∧
    headerOffset c (nextAlignedOffset c next) ≤ c.alias := by
  obtain ⟨a, ha, ea⟩ := hc.align_pow
  obtain ⟨b, hb, eb⟩ := hc.alias_pow
  have hal : 16 ≤ c.align := by
    rw [ea]; calc 16 = 2 ^ 4 := rfl
      _ ≤ _ := Nat.pow_le_pow_right (by decide) ha
  have hb0 : 0 < c.alias := by rw [eb]; exact Nat.two_pow_pos _
  obtain ⟨q, hq⟩ := hc.dvd
  have hq0 : 0 < q := by
    rcases Nat.eq_zero_or_pos q with h | h
    · rw [h] at hq; omega
    · exact h
  have hdiv : c.alias / c.align = q := by rw [hq]; exact Nat.mul_div_cancel_left _ (by omega)
  unfold headerOffset nextAlignedOffset kHeader
  rw [hdiv]
  by_cases h0 : c.align * (next % q) = 0
  · rw [if_pos h0]
    have : (16 + c.align - 1) / c.align = 1 := by
      apply Nat.div_eq_of_lt_le <;> omega
    rw [this, Nat.one_mul, hq]
    exact ⟨Nat.dvd_refl _, hal, Nat.le_mul_of_pos_right _ hq0⟩
  · rw [if_neg h0]
    refine ⟨⟨_, rfl⟩, ?_, ?_⟩
    · have : 0 < next % q := by
        rcases Nat.eq_zero_or_pos (next % q) with h | h
        · rw [h] at h0; simp at h0
        · exact h
      calc 16 ≤ c.align * 1 := by omega
        _ ≤ _ := Nat.mul_le_mul_left _ this
    · rw [hq]; exact Nat.mul_le_mul_left _ (Nat.mod_lt _ hq0).le

/-- Facts about one allocation, for any offset the code can choose. -/
theorem layout (c : Cfg) (hc : c.ok) (offset size base : Nat) (h1 : c.align ∣ offset) (h2 : 16 ≤ offset)
    (h3 : offset ≤ c.alias) (h0 : size ≠ 0) (hs : size < (2 ^ 64 - 1) / 2)
    (hb : base + allocatedSize c offset size ≤ 2 ^ 64) :
    payloadAddr c base offset % c.align = 0 ∧ base + 16 ≤ payloadAddr c base offset ∧
    payloadAddr c base offset + size ≤ base + allocatedSize c offset size := by
  obtain ⟨b, hb32, eb⟩ := hc.alias_pow
  have hbl : c.alias ≤ 2 ^ 32 := by rw [eb]; exact Nat.pow_le_pow_right (by decide) hb32
  have hb0 : 0 < c.alias := by rw [eb]; exact Nat.two_pow_pos _
  have hsz : allocatedSize c offset size = c.alias + offset + size := by
    unfold allocatedSize w64; apply Nat.mod_eq_of_lt; omega
  rw [hsz] at hb ⊢
  have hm : w64 (base + c.alias) = base + c.alias := Nat.mod_eq_of_lt (by omega)
  unfold payloadAddr
  rw [hm, show c.alias - 1 = 2 ^ b - 1 by rw [eb], and_mask _ _ (by omega) (by omega), ← eb]
  have hd := Nat.div_add_mod (base + c.alias) c.alias
  have hlt := Nat.mod_lt (base + c.alias) hb0
  rw [Nat.mul_comm] at hd
  generalize hA : (base + c.alias) / c.alias * c.alias = A at *
  have hAd : c.align ∣ A := by rw [← hA]; exact Dvd.dvd.mul_left hc.dvd _
  have hw : w64 (A + offset) = A + offset := Nat.mod_eq_of_lt (by omega)
  rw [hw]
  exact ⟨Nat.mod_eq_zero_of_dvd (Nat.dvd_add hAd h1), by omega, by omega⟩

/-- **C30 (layout).** For every configuration, every value of the shared counter, every accepted size and
every address the underlying allocator may return: the result is aligned, the 16-byte header and the
payload lie inside the underlying block, in that order, and the requested total does not wrap. -/
theorem C30_layout (c : Cfg) (hc : c.ok) (next size base : Nat) (h0 : size ≠ 0) (hs : size < (2 ^ 64 - 1) / 2)
    (hb : base + allocatedSize c (headerOffset c (nextAlignedOffset c next)) size ≤ 2 ^ 64) :
    let offset := headerOffset c (nextAlignedOffset c next)
    let p := payloadAddr c base offset
    p % c.align = 0 ∧ base ≤ p - kHeader ∧ kHeader ≤ p ∧ p + size ≤ base + allocatedSize c offset size ∧
      allocatedSize c offset size = c.alias + offset + size := by
  obtain ⟨o1, o2, o3⟩ := offset_ok c hc next
  obtain ⟨l1, l2, l3⟩ := layout c hc _ size base o1 o2 o3 h0 hs hb
  obtain ⟨b, hb32, eb⟩ := hc.alias_pow
  have hbl : c.alias ≤ 2 ^ 32 := by rw [eb]; exact Nat.pow_le_pow_right (by decide) hb32
  refine ⟨l1, ?_, ?_, l3, ?_⟩
  · unfold kHeader; omega
  · unfold kHeader; omega
  · unfold allocatedSize w64; apply Nat.mod_eq_of_lt; omega

/-! ### Histories -/

theorem load_store (m : Mem) (p v : Nat) (hv : v < 2 ^ 64) : load64 (store64 m p v) p = v := by
  unfold load64 store64
  have hh : ∀ k, k < 8 → (if p ≤ p + k ∧ p + k < p + 8 then v / 256 ^ (p + k - p) % 256 else m (p + k)) =
      v / 256 ^ k % 256 := by
    intro k hk
    rw [if_pos (by omega), Nat.add_sub_cancel_left]
  have h0 := hh 0 (by decide)
  rw [Nat.add_zero] at h0
  rw [h0, hh 1 (by decide), hh 2 (by decide), hh 3 (by decide), hh 4 (by decide), hh 5 (by decide),
    hh 6 (by decide), hh 7 (by decide)]
  norm_num
  omega

theorem load_congr (m m' : Mem) (p : Nat) (h : ∀ a, p ≤ a → a < p + 8 → m' a = m a) :
    load64 m' p = load64 m p := by
  unfold load64
  rw [h p (by omega) (by omega), h (p + 1) (by omega) (by omega), h (p + 2) (by omega) (by omega),
    h (p + 3) (by omega) (by omega), h (p + 4) (by omega) (by omega), h (p + 5) (by omega) (by omega),
    h (p + 6) (by omega) (by omega), h (p + 7) (by omega) (by omega)]

/-- Arguments of a call that passed the checks. -/
def Phase.args : Phase → Option (Nat × Nat)
  | .reserved size offset => some (size, offset)
  | .mallocd size offset _ => some (size, offset)
  | .live size offset _ _ => some (size, offset)
  | _ => none

structure Inv (c : Cfg) (s : State) : Prop where
  args : ∀ i size offset, (s.call i).args = some (size, offset) →
    size ≠ 0 ∧ size < (2 ^ 64 - 1) / 2 ∧ c.align ∣ offset ∧ 16 ≤ offset ∧ offset ≤ c.alias
  fits : ∀ i b n, (s.call i).block c = some (b, n) → b ≠ 0 ∧ b + n ≤ 2 ^ 64
  disj : ∀ i j b n b' n', i ≠ j → (s.call i).block c = some (b, n) → (s.call j).block c = some (b', n') →
    b + n ≤ b' ∨ b' + n' ≤ b
  live : ∀ i size offset base p, s.call i = .live size offset base p →
    p = payloadAddr c base offset ∧ load64 s.mem (p - kHeader) = base ∧ load64 s.mem (p - kHeader + 8) = size
  freed : ∀ i base, s.call i = .freed base → s.freedWith i = some base

theorem upd_same {β : Type} (f : Nat → β) (i : Nat) (x : β) : upd f i x i = x := by simp [upd]
theorem upd_ne {β : Type} (f : Nat → β) {i j : Nat} (x : β) (h : j ≠ i) : upd f i x j = f j := by simp [upd, h]

/-- A live call's header and payload lie inside its block. -/
theorem Inv.inside {c : Cfg} {s : State} (hc : c.ok) (I : Inv c s) {i size offset base p : Nat}
    (h : s.call i = .live size offset base p) :
    p % c.align = 0 ∧ base + 16 ≤ p ∧ p + size ≤ base + allocatedSize c offset size := by
  obtain ⟨a1, a2, a3, a4, a5⟩ := I.args i size offset (by rw [h]; rfl)
  obtain ⟨-, f⟩ := I.fits i base (allocatedSize c offset size) (by rw [h]; rfl)
  rw [(I.live i _ _ _ _ h).1]
  exact layout c hc offset size base a3 a4 a5 a1 a2 f

theorem inv_step (c : Cfg) (hc : c.ok) {s s' : State} (I : Inv c s) (st : Step c s s') : Inv c s' := by
  cases st with
  | reserve i size hi h0 hbig =>
    have o := offset_ok c hc s.next
    refine ⟨?_, ?_, ?_, ?_, ?_⟩
    · intro j sz of h
      by_cases hj : j = i
      · subst hj
        simp only [upd_same, Phase.args, Option.some.injEq, Prod.mk.injEq] at h
        obtain ⟨rfl, rfl⟩ := h
        exact ⟨h0, by omega, o.1, o.2.1, o.2.2⟩
      · simp only [upd_ne _ _ hj] at h; exact I.args j sz of h
    · intro j b n h
      by_cases hj : j = i
      · subst hj; simp [upd_same, Phase.block] at h
      · simp only [upd_ne _ _ hj] at h; exact I.fits j b n h
    · intro j k b n b' n' hjk h h'
      by_cases hj : j = i
      · subst hj; simp [upd_same, Phase.block] at h
      by_cases hk : k = i
      · subst hk; simp [upd_same, Phase.block] at h'
      simp only [upd_ne _ _ hj] at h; simp only [upd_ne _ _ hk] at h'
      exact I.disj j k b n b' n' hjk h h'
    · intro j sz of b p h
      by_cases hj : j = i
      · subst hj; simp [upd_same] at h
      · simp only [upd_ne _ _ hj] at h; exact I.live j sz of b p h
    · intro j b h
      by_cases hj : j = i
      · subst hj; simp [upd_same] at h
      · simp only [upd_ne _ _ hj] at h; exact I.freed j b h
  | malloc i size offset base hi hb0 hb hd =>
    refine ⟨?_, ?_, ?_, ?_, ?_⟩
    · intro j sz of h
      by_cases hj : j = i
      · subst hj
        simp only [upd_same, Phase.args, Option.some.injEq, Prod.mk.injEq] at h
        obtain ⟨rfl, rfl⟩ := h
        exact I.args j size offset (by rw [hi]; rfl)
      · simp only [upd_ne _ _ hj] at h; exact I.args j sz of h
    · intro j b n h
      by_cases hj : j = i
      · subst hj
        simp only [upd_same, Phase.block, Option.some.injEq, Prod.mk.injEq] at h
        obtain ⟨rfl, rfl⟩ := h
        exact ⟨hb0, hb⟩
      · simp only [upd_ne _ _ hj] at h; exact I.fits j b n h
    · intro j k b n b' n' hjk h h'
      by_cases hj : j = i
      · subst hj
        have hk : k ≠ j := fun e => hjk e.symm
        simp only [upd_same, Phase.block, Option.some.injEq, Prod.mk.injEq] at h
        simp only [upd_ne _ _ hk] at h'
        obtain ⟨rfl, rfl⟩ := h
        have := hd k b' n' h'
        omega
      by_cases hk : k = i
      · subst hk
        simp only [upd_same, Phase.block, Option.some.injEq, Prod.mk.injEq] at h'
        simp only [upd_ne _ _ hj] at h
        obtain ⟨rfl, rfl⟩ := h'
        have := hd j b n h
        omega
      simp only [upd_ne _ _ hj] at h; simp only [upd_ne _ _ hk] at h'
      exact I.disj j k b n b' n' hjk h h'
    · intro j sz of b p h
      by_cases hj : j = i
      · subst hj; simp [upd_same] at h
      · simp only [upd_ne _ _ hj] at h; exact I.live j sz of b p h
    · intro j b h
      by_cases hj : j = i
      · subst hj; simp [upd_same] at h
      · simp only [upd_ne _ _ hj] at h; exact I.freed j b h
  | header i size offset base hi =>
    obtain ⟨a1, a2, a3, a4, a5⟩ := I.args i size offset (by rw [hi]; rfl)
    have hbi : (s.call i).block c = some (base, allocatedSize c offset size) := by rw [hi]; rfl
    obtain ⟨f0, f⟩ := I.fits i _ _ hbi
    obtain ⟨l1, l2, l3⟩ := layout c hc offset size base a3 a4 a5 a1 a2 f
    have hoth : ∀ j, j ≠ i → ∀ sz of b p, s.call j = .live sz of b p → ∀ a, p - kHeader ≤ a → a < p →
        store64 (store64 s.mem (payloadAddr c base offset - kHeader) base)
                 (payloadAddr c base offset - kHeader + 8) size a = s.mem a := by
      intro j hj sz of b p h a ha1 ha2
      have hin := I.inside hc h
      have hdj := I.disj i j _ _ b (allocatedSize c of sz) (fun e => hj e.symm) hbi (by rw [h]; rfl)
      unfold store64 kHeader at *
      rw [if_neg (by omega), if_neg (by omega)]
    refine ⟨?_, ?_, ?_, ?_, ?_⟩
    · intro j sz of h
      by_cases hj : j = i
      · subst hj
        simp only [upd_same, Phase.args, Option.some.injEq, Prod.mk.injEq] at h
        obtain ⟨rfl, rfl⟩ := h
        exact I.args j size offset (by rw [hi]; rfl)
      · simp only [upd_ne _ _ hj] at h; exact I.args j sz of h
    · intro j b n h
      by_cases hj : j = i
      · subst hj
        simp only [upd_same, Phase.block] at h
        exact I.fits j b n (by rw [hi]; exact h)
      · simp only [upd_ne _ _ hj] at h; exact I.fits j b n h
    · have hsame : ∀ j b n, (upd s.call i (.live size offset base (payloadAddr c base offset)) j).block c =
          some (b, n) → (s.call j).block c = some (b, n) := by
        intro j b n h
        by_cases hj : j = i
        · subst hj
          simp only [upd_same, Phase.block] at h
          rw [hi]; exact h
        · simpa only [upd_ne _ _ hj] using h
      intro j k b n b' n' hjk h h'
      exact I.disj j k b n b' n' hjk (hsame j b n h) (hsame k b' n' h')
    · intro j sz of b p h
      by_cases hj : j = i
      · subst hj
        simp only [upd_same, Phase.live.injEq] at h
        obtain ⟨rfl, rfl, rfl, rfl⟩ := h
        refine ⟨rfl, ?_, ?_⟩
        · simp only
          rw [load_congr (store64 s.mem (payloadAddr c base offset - kHeader) base)]
          · exact load_store _ _ _ (by omega)
          · intro a _ _; unfold store64; rw [if_neg (by omega)]
        · exact load_store _ _ _ (by omega)
      · simp only [upd_ne _ _ hj] at h
        obtain ⟨e1, e2, e3⟩ := I.live j sz of b p h
        have hin := I.inside hc h
        refine ⟨e1, ?_, ?_⟩
        · rw [← e2]; apply load_congr
          intro a h1 h2
          exact hoth j hj sz of b p h a h1 (by unfold kHeader at *; omega)
        · rw [← e3]; apply load_congr
          intro a h1 h2
          exact hoth j hj sz of b p h a (by omega) (by unfold kHeader at *; omega)
    · intro j b h
      by_cases hj : j = i
      · subst hj; simp [upd_same] at h
      · simp only [upd_ne _ _ hj] at h; exact I.freed j b h
  | write i size offset base p k v hi hk =>
    refine ⟨I.args, I.fits, I.disj, ?_, I.freed⟩
    intro j sz of b q h
    obtain ⟨e1, e2, e3⟩ := I.live j sz of b q h
    have hin := I.inside hc h
    have hini := I.inside hc hi
    have hne : ∀ a, q - kHeader ≤ a → a < q → a ≠ p + k := by
      intro a h1 h2
      by_cases hj : j = i
      · subst hj
        rw [hi] at h
        simp only [Phase.live.injEq] at h
        omega
      · have := I.disj j i b _ base _ hj (by rw [h]; rfl) (by rw [hi]; rfl)
        unfold kHeader at *; omega
    refine ⟨e1, ?_, ?_⟩
    · rw [← e2]; apply load_congr
      intro a h1 h2
      simp only
      rw [if_neg (hne a h1 (by unfold kHeader at *; omega))]
    · rw [← e3]; apply load_congr
      intro a h1 h2
      simp only
      rw [if_neg (hne a (by omega) (by unfold kHeader at *; omega))]
  | free i size offset base p hi =>
    refine ⟨?_, ?_, ?_, ?_, ?_⟩
    · intro j sz of h
      by_cases hj : j = i
      · subst hj; simp [upd_same, Phase.args] at h
      · simp only [upd_ne _ _ hj] at h; exact I.args j sz of h
    · intro j b n h
      by_cases hj : j = i
      · subst hj; simp [upd_same, Phase.block] at h
      · simp only [upd_ne _ _ hj] at h; exact I.fits j b n h
    · intro j k b n b' n' hjk h h'
      by_cases hj : j = i
      · subst hj; simp [upd_same, Phase.block] at h
      by_cases hk : k = i
      · subst hk; simp [upd_same, Phase.block] at h'
      simp only [upd_ne _ _ hj] at h; simp only [upd_ne _ _ hk] at h'
      exact I.disj j k b n b' n' hjk h h'
    · intro j sz of b p h
      by_cases hj : j = i
      · subst hj; simp [upd_same] at h
      · simp only [upd_ne _ _ hj] at h; exact I.live j sz of b p h
    · intro j b h
      by_cases hj : j = i
      · subst hj
        simp only [upd_same, Phase.freed.injEq] at h
        simp only [upd_same]
        rw [(I.live j _ _ _ _ hi).2.1, h]
      · simp only [upd_ne _ _ hj] at h ⊢; exact I.freed j b h

theorem inv_reach (c : Cfg) (hc : c.ok) (m : Mem) (s : State) (h : Reach c m s) : Inv c s := by
  induction h with
  | init => exact ⟨by simp [init, Phase.args], by simp [init, Phase.block], by simp [init, Phase.block],
      by simp [init], by simp [init]⟩
  | step _ st ih => exact inv_step c hc ih st

/-- **C30 (histories).** After any interleaving of any number of allocations, frees and writes to payloads:
every live pointer is aligned; its payload lies inside the block its call obtained, after the header;
payloads of different live pointers are disjoint; `FreeAlignedBytes` will read back exactly the pointer
that the underlying allocator returned, and `DeleteAlignedArray` the requested size. -/
theorem C30_histories (c : Cfg) (hc : c.ok) (m : Mem) (s : State) (h : Reach c m s)
    (i size offset base p : Nat) (hi : s.call i = .live size offset base p) :
    p % c.align = 0 ∧ base ≤ p - kHeader ∧ kHeader ≤ p ∧
    p + size ≤ base + allocatedSize c offset size ∧ base + allocatedSize c offset size ≤ 2 ^ 64 ∧
    load64 s.mem (p - kHeader) = base ∧ load64 s.mem (p - kHeader + 8) = size ∧
    ∀ j size' offset' base' p', s.call j = .live size' offset' base' p' → j ≠ i →
      p + size ≤ p' - kHeader ∨ p' + size' ≤ p - kHeader := by
  have I := inv_reach c hc m s h
  obtain ⟨l1, l2, l3⟩ := I.inside hc hi
  obtain ⟨-, f⟩ := I.fits i base (allocatedSize c offset size) (by rw [hi]; rfl)
  obtain ⟨-, e2, e3⟩ := I.live i _ _ _ _ hi
  refine ⟨l1, by unfold kHeader; omega, by unfold kHeader; omega, l3, f, e2, e3, ?_⟩
  intro j sz of b q hj hne
  obtain ⟨k1, k2, k3⟩ := I.inside hc hj
  have := I.disj i j _ _ b _ (fun e => hne e.symm) (by rw [hi]; rfl) (by rw [hj]; rfl)
  unfold kHeader
  omega

/-- **C30 (free).** Every freed call handed the pointer obtained from the underlying allocator to `free`. -/
theorem C30_free (c : Cfg) (hc : c.ok) (m : Mem) (s : State) (h : Reach c m s) (i base : Nat)
    (hi : s.call i = .freed base) : s.freedWith i = some base :=
  (inv_reach c hc m s h).freed i base hi

/-- A reachable state with two live pointers at adversarial (misaligned, adjacent) addresses. -/
theorem C30_nonvacuous : ∃ s, Reach Cfg.x86 (fun _ => 0) s ∧
    s.call 0 = .live 100 128 7 1152 ∧ (∃ o, s.call 1 = .live 1 o (7 + 1252) (2048 + 128)) := by
  have r0 := Reach.init (c := Cfg.x86) (m := fun _ => 0)
  have r1 := r0.step (Step.reserve (c := Cfg.x86) _ 0 100 rfl (by decide) (by decide))
  have r2 := r1.step (Step.malloc (c := Cfg.x86) _ 0 100 128 7 rfl (by decide) (by decide) (by
    intro j b n h
    simp only [upd, init] at h
    split at h <;> simp [Phase.block] at h))
  have r3 := r2.step (Step.header (c := Cfg.x86) _ 0 100 128 7 rfl)
  have r4 := r3.step (Step.reserve (c := Cfg.x86) _ 1 1 rfl (by decide) (by decide))
  have r5 := r4.step (Step.malloc (c := Cfg.x86) _ 1 1 128 (7 + 1252) rfl (by decide) (by decide) (by
    intro j b n h
    simp only [upd, init] at h
    split at h
    · simp [Phase.block] at h
    · split at h
      · simp only [Phase.block, Option.some.injEq, Prod.mk.injEq] at h
        left
        have : allocatedSize Cfg.x86 128 100 = 1252 := by decide
        omega
      · simp [Phase.block] at h))
  have r6 := r5.step (Step.header (c := Cfg.x86) _ 1 1 128 (7 + 1252) rfl)
  exact ⟨_, r6, by rfl, ⟨128, by rfl⟩⟩

/-- **C30 (rejection).** Sizes whose total could wrap are rejected; zero aborts. -/
theorem C30_checkSize (size : Nat) :
    (size = 0 → checkSize size = .error .abort) ∧
    (2 ^ 63 ≤ size → checkSize size = .ok none) ∧
    (checkSize size = .ok (some size) ↔ size ≠ 0 ∧ size < 2 ^ 63 - 1) := by
  unfold checkSize
  refine ⟨fun h => by simp [h], fun h => ?_, ?_⟩
  · rw [if_neg (by omega), if_pos (by omega)]
  · constructor
    · intro h
      by_cases h0 : size = 0
      · simp [h0] at h
      · rw [if_neg h0] at h
        by_cases h1 : size ≥ (2 ^ 64 - 1) / 2
        · rw [if_pos h1] at h; simp at h
        · omega
    · intro h
      rw [if_neg h.1, if_neg (by omega)]

theorem shiftCount_pow (k : Nat) : shiftCount (2 ^ k) = k := by
  induction k with
  | zero => unfold shiftCount; simp
  | succ k ih =>
    unfold shiftCount
    have h1 : ¬ 2 ^ (k + 1) ≤ 1 := by
      have := Nat.two_pow_pos k
      rw [Nat.pow_succ]; omega
    rw [if_neg h1, Nat.pow_succ, Nat.mul_div_cancel _ (by decide), ih]
    omega

theorem pow2_of_and : ∀ n : Nat, 0 < n → n &&& (n - 1) = 0 → ∃ k, n = 2 ^ k := by
  intro n
  induction n using Nat.strongRecOn with
  | _ n ih =>
    intro h0 h
    rcases Nat.even_or_odd' n with ⟨m, hm | hm⟩
    · have hm0 : 0 < m := by omega
      have e : (n &&& (n - 1)) / 2 = m &&& (m - 1) := by
        rw [Nat.and_div_two]
        congr 1 <;> omega
      rw [h] at e
      obtain ⟨k, hk⟩ := ih m (by omega) hm0 (by simpa using e.symm)
      exact ⟨k + 1, by rw [Nat.pow_succ]; omega⟩
    · rcases Nat.eq_zero_or_pos m with h1 | h1
      · exact ⟨0, by simp [hm, h1]⟩
      · exfalso
        have e : (n &&& (n - 1)) / 2 = m := by
          rw [Nat.and_div_two, show n / 2 = m by omega, show (n - 1) / 2 = m by omega, Nat.and_self]
        rw [h] at e
        omega

/-- **C30 (array sizes).** The byte count is the exact product, and `nullptr` is returned exactly when the
product does not fit in `size_t`. -/
theorem C30_itemsBytes (kSize items : Nat) (hk : 0 < kSize) :
    itemsBytes kSize items = if items * kSize < 2 ^ 64 then some (items * kSize) else none := by
  have main : ∀ b, b = items * kSize % 2 ^ 64 →
      (if b / kSize ≠ items then none else some b) =
        if items * kSize < 2 ^ 64 then some (items * kSize) else none := by
    intro b hb
    by_cases hlt : items * kSize < 2 ^ 64
    · rw [Nat.mod_eq_of_lt hlt] at hb
      rw [if_pos hlt, hb, Nat.mul_div_cancel _ hk]; simp
    · rw [if_neg hlt, if_pos]
      intro h
      have h1 : b < 2 ^ 64 := by rw [hb]; exact Nat.mod_lt _ (by decide)
      have h2 : b / kSize * kSize ≤ b := Nat.div_mul_le_self _ _
      rw [h] at h2
      omega
  unfold itemsBytes
  by_cases hp : kSize &&& (kSize - 1) = 0
  · obtain ⟨k, rfl⟩ := pow2_of_and kSize hk hp
    simp only [hp, beq_self_eq_true, if_true, shiftCount_pow, Nat.shiftLeft_eq, Nat.shiftRight_eq_div_pow]
    exact main _ rfl
  · have : (kSize &&& (kSize - 1) == 0) = false := by simp [hp]
    simp only [this, Bool.false_eq_true, if_false]
    exact main _ rfl

example : itemsBytes 24 (2 ^ 62) = none ∧ itemsBytes 8 (2 ^ 60) = some (2 ^ 63) := by decide +kernel

/-! ### C41: AlignedNDArray -/

/-- Exact number of elements of an array of the given shape. -/
def numElements : List Nat → Nat
  | [] => 1
  | d :: ds => d * numElements ds

/-- Indices valid for a shape. -/
def InShape : List Nat → List Nat → Prop
  | _, [] => True
  | [], _ :: _ => False
  | d :: ds, i :: is => i < d ∧ InShape ds is

theorem computeSizes_eq : ∀ ds : List Nat, (∀ d ∈ ds, 0 < d) → numElements ds < 2 ^ 64 →
    (computeSizes ds).headD 1 = numElements ds ∧ (computeSizes ds).length = ds.length + 1 := by
  intro ds
  induction ds with
  | nil => intro _ _; exact ⟨rfl, rfl⟩
  | cons d ds ih =>
    intro h0 hlt
    have hd : 0 < d := h0 d (by simp)
    have hle : numElements ds ≤ numElements (d :: ds) := Nat.le_mul_of_pos_left _ hd
    obtain ⟨e1, e2⟩ := ih (fun x hx => h0 x (by simp [hx])) (by omega)
    refine ⟨?_, by simp [computeSizes, e2]⟩
    simp only [computeSizes, List.headD_cons, e1, w64]
    rw [Nat.mul_comm]
    exact Nat.mod_eq_of_lt hlt

theorem numElements_pos : ∀ ds : List Nat, (∀ d ∈ ds, 0 < d) → 0 < numElements ds := by
  intro ds
  induction ds with
  | nil => intro _; exact Nat.one_pos
  | cons d ds ih =>
    intro h
    exact Nat.mul_pos (h d (by simp)) (ih (fun x hx => h x (by simp [hx])))

/-- Exact offset of a row. -/
def rowOffset : List Nat → List Nat → Nat
  | _, [] => 0
  | [], _ :: _ => 0
  | _ :: ds, i :: is => numElements ds * i + rowOffset ds is

theorem row_bound : ∀ (ds is : List Nat), is.length ≤ ds.length → InShape ds is →
    rowOffset ds is + numElements (ds.drop is.length) ≤ numElements ds := by
  intro ds
  induction ds with
  | nil => intro is h _; cases is with
    | nil => simp [rowOffset]
    | cons i is => simp at h
  | cons d ds ih =>
    intro is h hi
    cases is with
    | nil => simp [rowOffset]
    | cons i is =>
      have := ih is (by simpa using h) hi.2
      simp only [rowOffset, List.length_cons, List.drop_succ_cons, numElements]
      calc numElements ds * i + rowOffset ds is + numElements (ds.drop is.length)
          ≤ numElements ds * i + numElements ds := by omega
        _ = (i + 1) * numElements ds := by ring
        _ ≤ d * numElements ds := Nat.mul_le_mul_right _ hi.1

theorem row_disjoint : ∀ (ds is js : List Nat), is.length = js.length → is.length ≤ ds.length →
    InShape ds is → InShape ds js → is ≠ js →
    rowOffset ds is + numElements (ds.drop is.length) ≤ rowOffset ds js ∨
    rowOffset ds js + numElements (ds.drop is.length) ≤ rowOffset ds is := by
  intro ds
  induction ds with
  | nil =>
    intro is js h1 h2 _ _ hne
    cases is with
    | nil => cases js with
      | nil => exact absurd rfl hne
      | cons _ _ => simp at h1
    | cons _ _ => simp at h2
  | cons d ds ih =>
    intro is js h1 h2 hi hj hne
    cases is with
    | nil => cases js with
      | nil => exact absurd rfl hne
      | cons _ _ => simp at h1
    | cons i is =>
      cases js with
      | nil => simp at h1
      | cons j js =>
        simp only [List.length_cons, Nat.add_right_cancel_iff] at h1
        simp only [List.length_cons, Nat.add_le_add_iff_right] at h2
        have b1 := row_bound ds is h2 hi.2
        have b2 := row_bound ds js (by omega) hj.2
        rw [← h1] at b2
        simp only [rowOffset, List.length_cons, List.drop_succ_cons]
        rcases Nat.lt_trichotomy i j with h | h | h
        · left
          have : numElements ds * (i + 1) ≤ numElements ds * j := Nat.mul_le_mul_left _ h
          have e : numElements ds * (i + 1) = numElements ds * i + numElements ds := by ring
          omega
        · subst h
          have := ih is js h1 h2 hi.2 hj.2 (fun e => hne (by rw [e]))
          omega
        · right
          have : numElements ds * (j + 1) ≤ numElements ds * i := Nat.mul_le_mul_left _ h
          have e : numElements ds * (j + 1) = numElements ds * j + numElements ds := by ring
          omega

theorem offsetOf_eq : ∀ (ds is : List Nat), (∀ d ∈ ds, 0 < d) → numElements ds < 2 ^ 64 →
    is.length ≤ ds.length → InShape ds is → offsetOf (computeSizes ds) is = rowOffset ds is := by
  intro ds
  induction ds with
  | nil => intro is _ _ h _; cases is with
    | nil => simp [rowOffset, offsetOf]
    | cons i is => simp at h
  | cons d ds ih =>
    intro is h0 hlt h hi
    cases is with
    | nil => simp [rowOffset, offsetOf]
    | cons i is =>
      have h0' : ∀ x ∈ ds, 0 < x := fun x hx => h0 x (by simp [hx])
      have hle : numElements ds ≤ numElements (d :: ds) := Nat.le_mul_of_pos_left _ (h0 d (by simp))
      have e := ih is h0' (by omega) (by simpa using h) hi.2
      have b := row_bound (d :: ds) (i :: is) h hi
      have hp := numElements_pos ((d :: ds).drop (i :: is).length) (fun x hx => h0 x (List.mem_of_mem_drop hx))
      obtain ⟨c1, c2⟩ := computeSizes_eq ds h0' (by omega)
      have hg : (computeSizes (d :: ds)).getD 1 0 = numElements ds := by
        rw [← c1]
        simp only [computeSizes]
        cases hcs : computeSizes ds with
        | nil => rw [hcs] at c2; simp at c2
        | cons x xs => rfl
      simp only [offsetOf, hg]
      rw [show (computeSizes (d :: ds)).tail = computeSizes ds from rfl, e]
      simp only [rowOffset] at b ⊢
      unfold w64
      exact Nat.mod_eq_of_lt (by omega)

theorem numElements_append (a b : List Nat) : numElements (a ++ b) = numElements a * numElements b := by
  induction a with
  | nil => simp [numElements]
  | cons x a ih => simp [numElements, ih, Nat.mul_assoc]

theorem rowOffset_dvd (vb : Nat) (hvb : vb ∣ x) : ∀ (ds is : List Nat), is.length ≤ ds.length →
    vb ∣ rowOffset (ds ++ [x]) is := by
  intro ds
  induction ds with
  | nil => intro is h; cases is with
    | nil => simp [rowOffset]
    | cons _ _ => simp at h
  | cons d ds ih =>
    intro is h
    cases is with
    | nil => simp [rowOffset]
    | cons i is =>
      simp only [List.cons_append, rowOffset, numElements_append]
      apply Nat.dvd_add
      · apply Dvd.dvd.mul_right
        apply Dvd.dvd.mul_left
        simpa [numElements] using hvb
      · exact ih is (by simpa using h)

/-- **C41.** For a shape (outer dimensions `outer`, innermost dimension `inner`) whose padded element count
fits in `size_t`: the innermost arrays of distinct in-range index tuples lie in the buffer of
`memory_size()` elements, do not overlap (even including their padding), and start at a multiple of
`VectorBytes()` elements. -/
theorem C41_ndarray (vb : Nat) (hvb : 0 < vb) (outer : List Nat) (inner : Nat) (h0 : ∀ d ∈ outer, 0 < d)
    (hin : 0 < inner) (hfit : numElements (memoryShape vb (outer ++ [inner])) < 2 ^ 64) :
    let ms := computeSizes (memoryShape vb (outer ++ [inner]))
    ∀ is, is.length = outer.length → InShape outer is →
      offsetOf ms is + inner ≤ ms.headD 1 ∧ vb ∣ offsetOf ms is ∧
      ∀ js, js.length = outer.length → InShape outer js → js ≠ is →
        offsetOf ms is + inner ≤ offsetOf ms js ∨ offsetOf ms js + inner ≤ offsetOf ms is := by
  have hms : memoryShape vb (outer ++ [inner]) = outer ++ [(inner + vb - 1) / vb * vb] := by
    simp [memoryShape]
  rw [hms] at hfit ⊢
  have hpad : inner ≤ (inner + vb - 1) / vb * vb := by
    have := Nat.div_add_mod (inner + vb - 1) vb
    have h2 := Nat.mod_lt (inner + vb - 1) hvb
    rw [Nat.mul_comm] at this
    omega
  generalize hx : (inner + vb - 1) / vb * vb = x at *
  have hxd : vb ∣ x := by rw [← hx]; exact Dvd.intro_left _ rfl
  have h0' : ∀ d ∈ outer ++ [x], 0 < d := by
    intro d hd
    rcases List.mem_append.mp hd with hd | hd
    · exact h0 d hd
    · rw [List.mem_singleton.mp hd]; omega
  have hshape : ∀ (o is : List Nat), is.length = o.length → InShape o is → InShape (o ++ [x]) is := by
    intro o
    induction o with
    | nil => intro is h _; cases is with
      | nil => trivial
      | cons _ _ => simp at h
    | cons d o ih => intro is h hi; cases is with
      | nil => trivial
      | cons i is => exact ⟨hi.1, ih is (by simpa using h) hi.2⟩
  have hlen : ∀ is : List Nat, is.length = outer.length → is.length ≤ (outer ++ [x]).length := by
    intro is h; simp; omega
  have hdrop : ∀ is : List Nat, is.length = outer.length → numElements ((outer ++ [x]).drop is.length) = x := by
    intro is h; rw [h]; simp [numElements]
  intro ms is hl hi
  have e : offsetOf ms is = rowOffset (outer ++ [x]) is :=
    offsetOf_eq _ is h0' hfit (hlen is hl) (hshape _ _ hl hi)
  have hsz : ms.headD 1 = numElements (outer ++ [x]) := (computeSizes_eq _ h0' hfit).1
  refine ⟨?_, ?_, ?_⟩
  · have b := row_bound _ is (hlen is hl) (hshape _ _ hl hi)
    rw [hdrop is hl] at b
    rw [e, hsz]; omega
  · rw [e]; exact rowOffset_dvd vb hxd outer is (by omega)
  · intro js hl2 hj hne
    have e2 : offsetOf ms js = rowOffset (outer ++ [x]) js :=
      offsetOf_eq _ js h0' hfit (hlen js hl2) (hshape _ _ hl2 hj)
    have d := row_disjoint _ is js (by omega) (hlen is hl) (hshape _ _ hl hi) (hshape _ _ hl2 hj)
      (fun e => hne e.symm)
    rw [hdrop is hl] at d
    rw [e, e2]; omega

/-- Without the size assumption the property fails: the product wraps and the buffer is too small
(shape `{2^32 + 1, 2^32}`, 2^32 elements are allocated, row 1 is past the end). -/
theorem C41_overflow : let ms := computeSizes (memoryShape 64 [2 ^ 32 + 1, 2 ^ 32])
    ms.headD 1 = 2 ^ 32 ∧ offsetOf ms [1] = 2 ^ 32 := by decide +kernel

example : let ms := computeSizes (memoryShape 16 [3, 2, 5]); ms = [96, 32, 16, 1] ∧ offsetOf ms [2, 1] = 80 := by
  decide +kernel

end Alloc
end Hwy
