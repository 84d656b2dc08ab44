import Verif.Recurse
import Verif.BaseCaseProof
import Verif.FastPathProof
import Verif.HeapProof

/-! # Samples and pivot selection: proofs -/

namespace Hwy
namespace VQ

variable {α : Type}

open Net

/-- Requirements on the traits; discharged for the actual key types in Traits.lean. -/
structure Traits.Valid (t : Traits α) : Prop where
  order : IsOrder t.lt
  orderNet : IsOrder t.ltNet
  antisymmNet : Antisymm t.ltNet
  refines : ∀ a b, t.lt a b = true → t.ltNet a b = true
  antisymm : t.isKV = false → Antisymm t.lt
  lastNet : IsLast t.ltNet t.lastValue
  firstLe : ∀ x, t.lt x t.firstValue = false
  prev_lt : ∀ v u, t.lt u v = true → t.lt (t.prev v) v = true
  prev_adj : ∀ v u x, t.lt u v = true → t.lt (t.prev v) x = true → t.lt x v = false
  first_mem : ∀ a b, t.first a b = a ∨ t.first a b = b
  first_le : ∀ a b, t.lt a (t.first a b) = false ∧ t.lt b (t.first a b) = false
  last_mem : ∀ a b, t.last a b = a ∨ t.last a b = b
  last_ge : ∀ a b, t.lt (t.last a b) a = false ∧ t.lt (t.last a b) b = false
  median_mem : ∀ a b c, eqk t.lt (t.median a b c) a = true ∨ eqk t.lt (t.median a b c) b = true ∨ eqk t.lt (t.median a b c) c = true

/-- Requirements on the environment: `N = 2 ^ n` keys per vector, vectors no larger than a 64-byte chunk, a base case of at
least two chunks, and compress-stores that do not rewrite memory after their valid lanes (see `C19_partition_overrun`). -/
structure Env.Valid (e : Env α) : Prop where
  pow : ∃ n, e.c.N = 2 ^ n
  lpk : e.lpk = 1 ∨ e.lpk = 2
  kmax : e.c.N ≤ e.Kmax
  dvd : e.c.N ∣ e.chunk
  chunk : 0 < e.chunk
  samples : 2 * e.chunk ≤ e.bcNum
  stores : e.c.isPartition = true ∨ e.c.rmw = false

theorem Env.Valid.N_pos {e : Env α} (h : e.Valid) : 0 < e.c.N := by
  obtain ⟨n, hn⟩ := h.pow
  rw [hn]; exact Nat.two_pow_pos n

theorem Env.Valid.N_le {e : Env α} (h : e.Valid) : e.c.N ≤ e.chunk := Nat.le_of_dvd h.chunk h.dvd

theorem eqk_refl {lt : α → α → Bool} (ho : IsOrder lt) (a : α) : eqk lt a a = true := by simp [eqk, ho.irrefl]

theorem eqk_def {lt : α → α → Bool} {a b : α} : eqk lt a b = true ↔ lt a b = false ∧ lt b a = false := by simp [eqk]

theorem eqk_symm {lt : α → α → Bool} {a b : α} (h : eqk lt a b = true) : eqk lt b a = true := by
  rw [eqk_def] at *; exact ⟨h.2, h.1⟩

theorem eqk_trans {lt : α → α → Bool} (ho : IsOrder lt) {a b c : α} (h1 : eqk lt a b = true) (h2 : eqk lt b c = true) :
    eqk lt a c = true := by
  rw [eqk_def] at *; exact ⟨ho.le_trans h2.1 h1.1, ho.le_trans h1.2 h2.2⟩

/-- `x` is equivalent to one of the keys. -/
def Good (lt : α → α → Bool) (keys : List α) (x : α) : Prop := ∃ k ∈ keys, eqk lt x k = true

/-! ### Drawing samples -/

theorem randomChunkIndex_spec (n b : Nat) (hn : 0 < n) (hb : b < 2 ^ 32) : ∃ i, randomChunkIndex n b = .ok i ∧ i < n := by
  unfold randomChunkIndex
  have : b * n / 2 ^ 32 < n := by
    rw [Nat.div_lt_iff_lt_mul (by decide), Nat.mul_comm n]
    exact Nat.mul_lt_mul_of_pos_right hb hn
  simp only []
  rw [if_pos this]
  exact ⟨_, rfl, this⟩

theorem sixBits_lt (s : Rng) : (sixBits s).1.length = 6 ∧ ∀ b ∈ (sixBits s).1, b < 2 ^ 32 := by
  have h : ∀ x : BitVec 64, x.toNat / 2 ^ 32 < 2 ^ 32 := fun x => by
    have := x.isLt; omega
  have h2 : ∀ x : Nat, x % 2 ^ 32 < 2 ^ 32 := fun x => Nat.mod_lt _ (by decide)
  refine ⟨rfl, ?_⟩
  intro b hb
  simp only [sixBits, List.mem_cons, List.not_mem_nil, or_false] at hb
  rcases hb with e | e | e | e | e | e <;> rw [e] <;> first | exact h _ | exact h2 _

theorem median3_good {t : Traits α} (hv : t.Valid) (keys : List α) : ∀ a b c : List α, (∀ x ∈ a, x ∈ keys) → (∀ x ∈ b, x ∈ keys) →
    (∀ x ∈ c, x ∈ keys) → ∀ x ∈ median3 t a b c, Good t.lt keys x := by
  intro a
  induction a with
  | nil => intro b c _ _ _ x hx; simp [median3] at hx
  | cons y a ih =>
    intro b c ha hb hc x hx
    match b, c with
    | [], _ => simp [median3] at hx
    | z :: b, [] => simp [median3] at hx
    | z :: b, w :: c =>
      simp only [median3, List.zipWith_cons_cons, List.mem_cons] at hx
      rcases hx with e | hx
      · rcases hv.median_mem y z w with h | h | h
        · exact ⟨y, ha _ (by simp), by rw [e]; exact h⟩
        · exact ⟨z, hb _ (by simp), by rw [e]; exact h⟩
        · exact ⟨w, hc _ (by simp), by rw [e]; exact h⟩
      · exact ih b c (fun q hq => ha q (by simp [hq])) (fun q hq => hb q (by simp [hq])) (fun q hq => hc q (by simp [hq])) x hx

theorem median3_length (t : Traits α) {a b c : List α} {n : Nat} (ha : a.length = n) (hb : b.length = n) (hc : c.length = n) :
    (median3 t a b c).length = n := by simp [median3, ha, hb, hc]

/-- Aligned loads at chunk-aligned offsets. -/
theorem loadA_spec (N chunk addr : Nat) (hN : N ∣ chunk) (keys : List α) (off i : Nat) (h1 : chunk ∣ addr) (h2 : chunk ∣ off) (h3 : N ∣ i)
    (h4 : off + i + N ≤ keys.length) :
    ∃ v, loadA N addr keys (off + i) = .ok v ∧ v.length = N ∧ ∀ x ∈ v, x ∈ keys := by
  unfold loadA
  have : (addr + (off + i)) % N = 0 :=
    Nat.mod_eq_zero_of_dvd (Nat.dvd_add (Nat.dvd_trans hN h1) (Nat.dvd_add (Nat.dvd_trans hN h2) h3))
  rw [if_pos this, Vec.loadU_ok _ _ _ h4]
  refine ⟨_, rfl, by simp; omega, fun x hx => List.mem_of_mem_drop (List.mem_of_mem_take hx)⟩

/-- Where samples have been written so far. -/
def Drawn (P : α → Prop) (chunk i : Nat) (buf : List α) : Prop :=
  ∀ j x, (j < i ∨ (chunk ≤ j ∧ j < chunk + i)) → buf[j]? = some x → P x

theorem storeU_get? (v a : List α) (i : Nat) (h : i + v.length ≤ a.length) :
    ∃ b, Vec.storeU v a i = .ok b ∧ b.length = a.length ∧
      ∀ j, b[j]? = if i ≤ j ∧ j < i + v.length then v[j - i]? else a[j]? := by
  refine ⟨_, Vec.storeU_ok v a i h, by simp; omega, ?_⟩
  intro j
  rw [List.append_assoc]
  by_cases h1 : j < i
  · rw [List.getElem?_append_left (by simp; omega), if_neg (by omega), List.getElem?_take_of_lt h1]
  · rw [List.getElem?_append_right (by simp; omega), List.length_take, Nat.min_eq_left (by omega)]
    by_cases h2 : j < i + v.length
    · rw [List.getElem?_append_left (by omega), if_pos ⟨by omega, h2⟩]
    · rw [List.getElem?_append_right (by omega), if_neg (by omega), List.getElem?_drop]
      congr 1; omega

theorem drawLoop_spec {t : Traits α} (hv : t.Valid) (N chunk addr : Nat) (hN : 0 < N) (hd : N ∣ chunk) (keys : List α) (offs : List Nat)
    (h1 : chunk ∣ addr) (h2 : ∀ j, j < 6 → chunk ∣ offs.getD j 0 ∧ offs.getD j 0 + chunk ≤ keys.length) :
    ∀ fuel i (buf : List α), chunk < i + fuel * N → 0 < fuel → i ≤ chunk → N ∣ i → 2 * chunk ≤ buf.length →
      Drawn (Good t.lt keys) chunk i buf →
      ∃ b, drawLoop t N chunk addr keys offs fuel i buf = .ok b ∧ b.length = buf.length ∧ Drawn (Good t.lt keys) chunk chunk b := by
  intro fuel
  induction fuel with
  | zero => intro i buf _ h; omega
  | succ fuel ih =>
    intro i buf hf _ hi hdi hb hdr
    unfold drawLoop
    by_cases hc : i < chunk
    · rw [if_pos hc]
      have hiN : i + N ≤ chunk := by
        obtain ⟨a, rfl⟩ := hdi; obtain ⟨b, rfl⟩ := hd
        have : a < b := by
          rcases Nat.lt_or_ge a b with h | h
          · exact h
          · have := Nat.mul_le_mul_left N h; omega
        have := Nat.mul_le_mul_left N this
        rw [Nat.mul_succ] at this; exact this
      have ld : ∀ j, j < 6 → ∃ v, loadA N addr keys (offs.getD j 0 + i) = .ok v ∧ v.length = N ∧ ∀ x ∈ v, x ∈ keys := fun j hj =>
        loadA_spec N chunk addr hd keys _ i h1 (h2 j hj).1 hdi (by have := (h2 j hj).2; omega)
      obtain ⟨v0, e0, l0, m0⟩ := ld 0 (by decide)
      obtain ⟨v1, e1, l1, m1⟩ := ld 1 (by decide)
      obtain ⟨v2, e2, l2, m2⟩ := ld 2 (by decide)
      obtain ⟨v3, e3, l3, m3⟩ := ld 3 (by decide)
      obtain ⟨v4, e4, l4, m4⟩ := ld 4 (by decide)
      obtain ⟨v5, e5, l5, m5⟩ := ld 5 (by decide)
      have la := median3_length t l0 l1 l2
      have lb := median3_length t l3 l4 l5
      have ga := median3_good hv keys _ _ _ m0 m1 m2
      have gb := median3_good hv keys _ _ _ m3 m4 m5
      rw [e0, ok_bind, e1, ok_bind, e2, ok_bind]
      obtain ⟨b1, s1, sl1, sg1⟩ := storeU_get? (median3 t v0 v1 v2) buf i (by omega)
      rw [s1, ok_bind, e3, ok_bind, e4, ok_bind, e5, ok_bind]
      obtain ⟨b2, s2, sl2, sg2⟩ := storeU_get? (median3 t v3 v4 v5) b1 (i + chunk) (by omega)
      rw [s2, ok_bind]
      have hfuel : 0 < fuel := by
        rcases Nat.eq_zero_or_pos fuel with h | h
        · subst h; omega
        · exact h
      obtain ⟨b, r1, r2, r3⟩ := ih (i + N) b2 (by rw [Nat.succ_mul] at hf; omega) hfuel hiN (Nat.dvd_add hdi (Nat.dvd_refl N)) (by omega) (by
        intro j x hj hx
        rw [sg2] at hx
        split at hx
        · exact gb x (List.mem_of_getElem? hx)
        · rw [sg1] at hx
          split at hx
          · exact ga x (List.mem_of_getElem? hx)
          · exact hdr j x (by omega) hx)
      exact ⟨b, r1, by omega, r3⟩
    · rw [if_neg hc]
      have : i = chunk := by omega
      subst this
      exact ⟨buf, rfl, rfl, hdr⟩

theorem drawSamples_spec {e : Env α} (he : e.Valid) {t : Traits α} (hv : t.Valid) (addr : Nat) (keys buf : List α) (rng : Rng)
    (hk : 2 * e.chunk ≤ keys.length) (hb : 2 * e.chunk ≤ buf.length) :
    ∃ b r, drawSamples e t addr keys buf rng = .ok (b, r) ∧ b.length = buf.length ∧ ∀ x ∈ b.take (2 * e.chunk), Good t.lt keys x := by
  have hcp := he.chunk
  have hNp := he.N_pos
  unfold drawSamples
  rw [if_neg (by omega)]
  simp only []
  have hmod := Nat.mod_lt addr hcp
  generalize hcons : (if addr % e.chunk ≠ 0 then e.chunk - addr % e.chunk else 0) = cons
  have hc1 : cons < e.chunk ∧ e.chunk ∣ addr + cons := by
    by_cases h : addr % e.chunk = 0
    · rw [if_neg (by simpa using h)] at hcons
      subst hcons
      exact ⟨hcp, by simpa using Nat.dvd_of_mod_eq_zero h⟩
    · rw [if_pos h] at hcons
      refine ⟨by omega, ?_⟩
      have hda := Nat.div_add_mod addr e.chunk
      refine ⟨addr / e.chunk + 1, ?_⟩
      rw [Nat.mul_add, Nat.mul_one]; omega
  obtain ⟨six, hsix⟩ := sixBits_lt rng
  obtain ⟨bits, rng', hbits⟩ : ∃ b r, sixBits rng = (b, r) := ⟨_, _, rfl⟩
  rw [hbits] at six hsix ⊢
  simp only [] at six hsix ⊢
  generalize hnc : min ((keys.length - cons) / e.chunk) 0xFFFFFFFF = nc
  have hq1 : 1 ≤ (keys.length - cons) / e.chunk := by rw [Nat.le_div_iff_mul_le hcp]; omega
  have hnc1 : 0 < nc := by omega
  have hnc2 : nc * e.chunk ≤ keys.length - cons := by
    have h1 : nc ≤ (keys.length - cons) / e.chunk := by omega
    exact Nat.le_trans (Nat.mul_le_mul_right _ h1) (Nat.div_mul_le_self _ _)
  obtain ⟨idx, i1, i2, i3⟩ := mapM_spec (randomChunkIndex nc) (fun _ i => i < nc) bits (fun x hx => randomChunkIndex_spec nc x hnc1 (hsix x hx))
  rw [i1, ok_bind]
  obtain ⟨b, d1, d2, d3⟩ := drawLoop_spec hv e.c.N e.chunk (addr + cons) hNp he.dvd (keys.drop cons) (idx.map (· * e.chunk)) hc1.2 (by
      intro j hj
      have hj' : j < bits.length := by omega
      obtain ⟨y, hy, hy2⟩ := i3 j bits[j] (List.getElem?_eq_getElem hj')
      have : (idx.map (· * e.chunk)).getD j 0 = y * e.chunk := by
        rw [List.getD_eq_getElem?_getD, List.getElem?_map, hy]; rfl
      rw [this, List.length_drop]
      refine ⟨Nat.dvd_mul_left _ _, ?_⟩
      have := Nat.mul_le_mul_right e.chunk (show y + 1 ≤ nc from hy2)
      rw [Nat.add_mul, Nat.one_mul] at this
      omega) (e.chunk + 1) 0 buf (by
        have := Nat.mul_le_mul_left (e.chunk + 1) (show 1 ≤ e.c.N from hNp); omega) (by omega) (by omega) (Nat.dvd_zero _) hb
      (by intro j x hj; omega)
  rw [d1, ok_bind]
  refine ⟨b, rng', rfl, d2, ?_⟩
  intro x hx
  obtain ⟨j, hj, hx⟩ := List.getElem_of_mem hx
  rw [List.length_take] at hj
  rw [List.getElem_take] at hx
  obtain ⟨k, hk1, hk2⟩ := d3 j x (by omega) (by rw [List.getElem?_eq_getElem (by omega), hx])
  exact ⟨k, List.mem_of_mem_drop hk1, hk2⟩

theorem unsortedSampleEqual_spec {e : Env α} (he : e.Valid) (t : Traits α) (buf : List α) (hb : 2 * e.chunk ≤ buf.length) :
    ∃ x, buf[0]? = some x ∧ readAt buf 0 = .ok x ∧
      unsortedSampleEqual e t buf = .ok ((buf.take (2 * e.chunk)).all (fun y => eqk t.lt y x)) := by
  have hcp := he.chunk
  have h0 : 0 < buf.length := by omega
  refine ⟨buf[0], List.getElem?_eq_getElem h0, readAt_of_lt h0, ?_⟩
  unfold unsortedSampleEqual
  rw [readAt_of_lt h0, ok_bind, Vec.loadU_ok _ _ _ (by omega), ok_bind]
  rfl

theorem sorted_refines {t : Traits α} (hv : t.Valid) {l : List α} (h : Sorted t.ltNet l) : Sorted t.lt l := by
  refine List.Pairwise.imp ?_ h
  intro a b hab
  cases hlt : t.lt b a with
  | false => rfl
  | true => rw [hv.refines _ _ hlt] at hab; cases hab

theorem baseCase_spec {e : Env α} (he : e.Valid) {t : Traits α} (hv : t.Valid) (keys buf : List α) (hk : keys.length ≤ e.bcNum)
    (hb : e.bcNum + e.c.N ≤ buf.length) :
    ∃ out b, baseCase e.mightFault e.big t.ltNet t.lastValue e.c.N e.Kmax keys keys.length buf = .ok (out, b) ∧ b.length = buf.length ∧
      Sorted t.lt out ∧ out.Perm keys := by
  obtain ⟨n, hn⟩ := he.pow
  have hkm := he.kmax
  unfold Env.bcNum at hk hb
  rw [hn] at hk hb hkm ⊢
  obtain ⟨out, b, h1, h2, h3, h4, h5, h6⟩ := C20_baseCase hv.orderNet hv.antisymmNet hv.lastNet e.mightFault e.big e.lpk he.lpk n e.Kmax hkm
    keys buf keys.length hk (Nat.le_refl _) hb
  refine ⟨out, b, h1, h2, ?_, ?_⟩
  · rw [← h3, List.take_length] at h4; exact sorted_refines hv h4
  · rw [List.take_length, ← h3, List.take_length] at h5; exact h5

theorem sortSamples_spec {e : Env α} (he : e.Valid) {t : Traits α} (hv : t.Valid) (buf : List α) (hb : 2 * e.chunk + e.bcNum + e.c.N ≤ buf.length) :
    ∃ out, sortSamples e t buf = .ok out ∧ out.length = buf.length ∧ Sorted t.lt (out.take (2 * e.chunk)) ∧
      (out.take (2 * e.chunk)).Perm (buf.take (2 * e.chunk)) := by
  unfold sortSamples
  have hs := he.samples
  rw [if_neg (by omega)]
  have hl : (buf.take (2 * e.chunk)).length = 2 * e.chunk := by rw [List.length_take]; omega
  obtain ⟨s, b, h1, h2, h3, h4⟩ := baseCase_spec he hv (buf.take (2 * e.chunk)) (buf.drop (2 * e.chunk)) (by omega)
    (by rw [List.length_drop]; omega)
  rw [hl] at h1
  rw [h1, ok_bind]
  have hsl : s.length = 2 * e.chunk := by rw [h4.length_eq, hl]
  have ht : (s ++ b).take (2 * e.chunk) = s := by rw [← hsl, List.take_left]
  refine ⟨s ++ b, rfl, ?_, ?_, ?_⟩
  · rw [List.length_append, h2, List.length_drop]; omega
  · rw [ht]; exact h3
  · rw [ht]; exact h4

/-! ### Pivot by rank -/

theorem sorted_le {lt : α → α → Bool} (ho : IsOrder lt) {l : List α} (h : Sorted lt l) {i j : Nat} {x y : α} (hij : i ≤ j)
    (hx : l[i]? = some x) (hy : l[j]? = some y) : lt y x = false := by
  rcases Nat.eq_or_lt_of_le hij with e | hlt
  · subst e; rw [hx] at hy; cases hy; exact ho.irrefl _
  · obtain ⟨hi, hx⟩ := List.getElem?_eq_some_iff.mp hx
    obtain ⟨hj, hy⟩ := List.getElem?_eq_some_iff.mp hy
    have := (List.pairwise_iff_getElem.mp h) i j hi hj hlt
    rw [hx, hy] at this; exact this

theorem readAt_some {a : List α} {i : Nat} {x : α} (h : a[i]? = some x) : readAt a i = .ok x := by simp [readAt, h]

theorem rankPrev_spec {lt : α → α → Bool} (samples : List α) (mid : α) : ∀ r, r < samples.length →
    ∃ o, rankPrev lt samples mid r = .ok o ∧
      (o = none → ∀ j x, j ≤ r → samples[j]? = some x → eqk lt x mid = true) ∧
      (∀ rp, o = some rp → rp ≤ r ∧ (∃ x, samples[rp]? = some x ∧ eqk lt x mid = false) ∧
        ∀ j x, rp < j → j ≤ r → samples[j]? = some x → eqk lt x mid = true) := by
  intro r
  induction r with
  | zero =>
    intro h
    have h0 := List.getElem?_eq_getElem h
    unfold rankPrev
    rw [readAt_some h0, ok_bind]
    cases hq : eqk lt samples[0] mid with
    | true =>
      refine ⟨none, rfl, ?_, by intro rp h; cases h⟩
      intro _ j x hj hx
      have : j = 0 := by omega
      subst this; rw [h0] at hx; cases hx; exact hq
    | false =>
      refine ⟨some 0, rfl, (fun h => by cases h), ?_⟩
      rintro rp ⟨rfl⟩
      exact ⟨Nat.le_refl _, ⟨_, h0, hq⟩, fun j x h1 h2 => by omega⟩
  | succ r ih =>
    intro h
    have h0 := List.getElem?_eq_getElem h
    unfold rankPrev
    rw [readAt_some h0, ok_bind]
    cases hq : eqk lt samples[r + 1] mid with
    | true =>
      obtain ⟨o, h1, h2, h3⟩ := ih (by omega)
      refine ⟨o, by simpa using h1, ?_, ?_⟩
      · intro ho j x hj hx
        rcases Nat.eq_or_lt_of_le hj with e | hlt
        · subst e; rw [h0] at hx; cases hx; exact hq
        · exact h2 ho j x (by omega) hx
      · intro rp ho
        obtain ⟨g1, g2, g3⟩ := h3 rp ho
        refine ⟨by omega, g2, ?_⟩
        intro j x hj1 hj2 hx
        rcases Nat.eq_or_lt_of_le hj2 with e | hlt
        · subst e; rw [h0] at hx; cases hx; exact hq
        · exact g3 j x hj1 (by omega) hx
    | false =>
      refine ⟨some (r + 1), rfl, (fun h => by cases h), ?_⟩
      rintro rp ⟨rfl⟩
      exact ⟨Nat.le_refl _, ⟨_, h0, hq⟩, fun j x h1 h2 => by omega⟩

theorem rankNext_spec {lt : α → α → Bool} (samples : List α) (mid : α) (n : Nat) (hn : n ≤ samples.length) : ∀ fuel r, r < n → n < r + fuel →
    ∃ o, rankNext lt samples mid n fuel r = .ok o ∧
      ∀ rn, o = some rn → r ≤ rn ∧ rn < n ∧ ∃ x, samples[rn]? = some x ∧ eqk lt x mid = false := by
  intro fuel
  induction fuel with
  | zero => intro r _ h; omega
  | succ fuel ih =>
    intro r hr hf
    have h0 := List.getElem?_eq_getElem (show r < samples.length by omega)
    unfold rankNext
    rw [readAt_some h0, ok_bind]
    cases hq : eqk lt samples[r] mid with
    | true =>
      by_cases he : r = n - 1
      · refine ⟨none, by simp [he]; rfl, fun rn h => by cases h⟩
      · obtain ⟨o, h1, h2⟩ := ih (r + 1) (by omega) (by omega)
        refine ⟨o, by simp [he]; exact h1, ?_⟩
        intro rn ho
        obtain ⟨g1, g2⟩ := h2 rn ho
        exact ⟨by omega, g2⟩
    | false =>
      refine ⟨some r, rfl, ?_⟩
      rintro rn ⟨rfl⟩
      exact ⟨Nat.le_refl _, hr, _, h0, hq⟩

/-- Not equivalent and not after means before. -/
theorem lt_of_not_eqk {lt : α → α → Bool} {a b : α} (h1 : eqk lt a b = false) (h2 : lt b a = false) : lt a b = true := by
  cases h : lt a b with
  | true => rfl
  | false => simp [eqk, h, h2] at h1

theorem lt_le {lt : α → α → Bool} (ho : IsOrder lt) {a b c : α} (h1 : lt a b = true) (h2 : lt c b = false) : lt a c = true := by
  rcases ho.cotrans a c b h1 with h | h
  · exact h
  · rw [h2] at h; cases h

theorem le_lt {lt : α → α → Bool} (ho : IsOrder lt) {a b c : α} (h1 : lt b a = false) (h2 : lt b c = true) : lt a c = true := by
  rcases ho.cotrans b a c h2 with h | h
  · rw [h1] at h; cases h
  · exact h

/-- `ChoosePivotByRank` returns one of the samples, and it comes before the last one. -/
theorem choosePivotByRank_spec {lt : α → α → Bool} (ho : IsOrder lt) (samples : List α) (n : Nat) (hn : 2 ≤ n) (hl : n ≤ samples.length)
    (hs : Sorted lt (samples.take n)) {a b : α} (ha : samples[0]? = some a) (hb : samples[n - 1]? = some b) (hab : lt a b = true) :
    ∃ p, choosePivotByRank lt samples n = .ok p ∧ p ∈ samples.take n ∧ lt p b = true := by
  have getT : ∀ i x, i < n → samples[i]? = some x → (samples.take n)[i]? = some x := by
    intro i x hi hx; rw [List.getElem?_take_of_lt hi]; exact hx
  have key : ∃ r x, pivotRank lt samples n = .ok r ∧ r < n ∧ samples[r]? = some x ∧ lt x b = true := by
    have hm := List.getElem?_eq_getElem (show n / 2 < samples.length by omega)
    unfold pivotRank
    rw [readAt_some hm, ok_bind]
    generalize samples[n / 2] = mid at hm ⊢
    have hmb : lt b mid = false := sorted_le ho hs (show n / 2 ≤ n - 1 by omega) (getT _ _ (by omega) hm) (getT _ _ (by omega) hb)
    obtain ⟨o, h1, h2, h3⟩ := rankPrev_spec (lt := lt) samples mid (n / 2 - 1) (by omega)
    rw [h1, ok_bind]
    cases o with
    | none => exact ⟨0, a, rfl, by omega, ha, hab⟩
    | some rp =>
      obtain ⟨g1, ⟨x, g2, g3⟩, g4⟩ := h3 rp rfl
      have hxm : lt x mid = true := lt_of_not_eqk g3 (sorted_le ho hs (show rp ≤ n / 2 by omega) (getT _ _ (by omega) g2) (getT _ _ (by omega) hm))
      have hxb : lt x b = true := lt_le ho hxm hmb
      show ∃ r x, rankOf lt samples mid n rp = .ok r ∧ _
      unfold rankOf
      obtain ⟨o, k1, k2⟩ := rankNext_spec (lt := lt) samples mid n hl (n + 1) (rp + 1) (by omega) (by omega)
      rw [k1, ok_bind]
      cases o with
      | none => exact ⟨rp, x, rfl, by omega, g2, hxb⟩
      | some rn =>
        obtain ⟨q1, q2, y, q3, q4⟩ := k2 rn rfl
        have hgt : n / 2 < rn := by
          rcases Nat.lt_trichotomy rn (n / 2) with h | h | h
          · have := g4 rn y (by omega) (by omega) q3
            rw [this] at q4; cases q4
          · subst h; rw [hm] at q3; cases q3
            rw [eqk_refl ho] at q4; cases q4
          · exact h
        have hmy : lt mid y = true := by
          have h5 := sorted_le ho hs (show n / 2 ≤ rn by omega) (getT _ _ (by omega) hm) (getT _ _ (by omega) q3)
          refine lt_of_not_eqk ?_ h5
          cases h : eqk lt mid y with
          | false => rfl
          | true => rw [eqk_symm h] at q4; cases q4
        have hyb : lt b y = false := sorted_le ho hs (show rn ≤ n - 1 by omega) (getT _ _ (by omega) q3) (getT _ _ (by omega) hb)
        by_cases hc : rn - n / 2 < n / 2 - rp
        · exact ⟨n / 2, mid, by simp [hc]; rfl, by omega, hm, lt_le ho hmy hyb⟩
        · exact ⟨rp, x, by simp [hc]; rfl, by omega, g2, hxb⟩
  obtain ⟨r, x, h1, h2, h3, h4⟩ := key
  unfold choosePivotByRank
  rw [h1, ok_bind, readAt_some h3, ok_bind, readAt_some hb, ok_bind]
  have : eqk lt x b = false := by simp [eqk, h4]
  rw [this]
  exact ⟨x, rfl, List.mem_of_getElem? (getT _ _ h2 h3), h4⟩

end VQ
end Hwy
