import Verif.PoolTasks
import Verif.DivisorSpec
import Mathlib.Data.Nat.GCD.Basic
import Mathlib.Data.Nat.ModEq
import Mathlib.Data.Nat.Bitwise
import Mathlib.Data.List.Nodup
import Mathlib.Data.List.Perm.Subperm
import Mathlib.Data.Nat.Prime.Basic

/-! # C14, C15: static task split and work-stealing victim order -/

namespace Hwy
namespace Pool

/-! ## CoprimeNonzero -/

theorem ctzN_spec : ∀ (fuel n : Nat), 0 < n → n < 2 ^ fuel →
    (n >>> ctzN fuel n) % 2 = 1 ∧ n = 2 ^ ctzN fuel n * (n >>> ctzN fuel n) := by
  intro fuel
  induction fuel with
  | zero => intro n h1 h2; simp at h2; omega
  | succ k ih =>
    intro n h1 h2
    unfold ctzN
    by_cases h : n % 2 = 1
    · simp [h]
    · rw [if_neg h]
      have h3 : n / 2 < 2 ^ k := by rw [Nat.pow_succ] at h2; omega
      obtain ⟨i1, i2⟩ := ih (n / 2) (by omega) h3
      have e : n >>> (ctzN k (n / 2) + 1) = (n / 2) >>> ctzN k (n / 2) := by
        rw [Nat.add_comm, Nat.shiftRight_add]; simp [Nat.shiftRight_succ]
      rw [e]
      refine ⟨i1, ?_⟩
      rw [Nat.pow_succ, Nat.mul_comm _ 2, Nat.mul_assoc, ← i2]
      omega

theorem gcd_strip (n b t m : Nat) (h : n = 2 ^ t * m) (hb : b % 2 = 1) :
    Nat.gcd n b = Nat.gcd m b := by
  rw [h]
  apply Nat.Coprime.gcd_mul_left_cancel
  apply Nat.Coprime.pow_left
  rw [Nat.coprime_two_left, Nat.odd_iff]; exact hb

theorem coprimeLoop_spec : ∀ (fuel a b : Nat), a % 2 = 1 → b % 2 = 1 → a < 2 ^ 32 → b < 2 ^ 32 →
    a + b < fuel → coprimeLoop fuel a b = .ok (Nat.gcd a b == 1) := by
  intro fuel
  induction fuel with
  | zero => intro a b _ _ _ _ h; omega
  | succ k ih =>
    intro a0 b0 ha0 hb0 hla hlb hf
    have hg : Nat.gcd a0 b0 = Nat.gcd (max a0 b0) (min a0 b0) := by
      rcases Nat.le_total a0 b0 with h | h
      · rw [Nat.max_eq_right h, Nat.min_eq_left h, Nat.gcd_comm]
      · rw [Nat.max_eq_left h, Nat.min_eq_right h]
    have ha : (max a0 b0) % 2 = 1 := by rcases Nat.le_total a0 b0 with h | h <;> simp [h, ha0, hb0]
    have hb : (min a0 b0) % 2 = 1 := by rcases Nat.le_total a0 b0 with h | h <;> simp [h, ha0, hb0]
    have hs : max a0 b0 + min a0 b0 = a0 + b0 := by omega
    have hle : min a0 b0 ≤ max a0 b0 := by omega
    have hmx : max a0 b0 < 2 ^ 32 := by omega
    unfold coprimeLoop
    simp only
    rw [hg]
    generalize max a0 b0 = a at *
    generalize min a0 b0 = b at *
    by_cases h1 : b = 1
    · simp [h1]
    · rw [if_neg h1]
      by_cases h2 : a - b = 0
      · rw [if_pos h2]
        have : a = b := by omega
        subst this
        simp [h1]
      · rw [if_neg h2]
        obtain ⟨s1, s2⟩ := ctzN_spec 32 (a - b) (by omega) (by omega)
        have hlt : (a - b) >>> ctzN 32 (a - b) ≤ a - b := Nat.shiftRight_le _ _
        rw [ih _ _ s1 hb (by omega) (by omega) (by omega)]
        congr 2
        rw [← gcd_strip (a - b) b _ _ s2 hb]
        conv_rhs => rw [show a = (a - b) + b by omega]
        rw [Nat.gcd_add_self_left]

/-- **C15 (CoprimeNonzero).** For all non-zero 32-bit arguments the loop terminates and decides
whether the greatest common divisor is 1. -/
theorem C15_coprimeNonzero (a b : Nat) (ha : 0 < a) (hb : 0 < b) (ha' : a < 2 ^ 32) (hb' : b < 2 ^ 32) :
    coprimeNonzero a b = .ok (Nat.gcd a b == 1) := by
  unfold coprimeNonzero
  rw [if_neg (by omega)]
  simp only
  obtain ⟨a1, a2⟩ := ctzN_spec 32 a ha ha'
  obtain ⟨b1, b2⟩ := ctzN_spec 32 b hb hb'
  by_cases h : min (ctzN 32 a) (ctzN 32 b) ≠ 0
  · rw [if_pos h]
    have e1 : 2 ∣ a := by
      rw [a2]; exact Dvd.dvd.mul_right (dvd_pow_self 2 (by omega)) _
    have e2 : 2 ∣ b := by
      rw [b2]; exact Dvd.dvd.mul_right (dvd_pow_self 2 (by omega)) _
    have : Nat.gcd a b ≠ 1 := by
      intro hc
      have := Nat.dvd_gcd e1 e2
      rw [hc] at this
      omega
    simp [this]
  · rw [if_neg h]
    have l1 : a >>> ctzN 32 a ≤ a := Nat.shiftRight_le _ _
    have l2 : b >>> ctzN 32 b ≤ b := Nat.shiftRight_le _ _
    rw [coprimeLoop_spec _ _ _ a1 b1 (by omega) (by omega) (by omega)]
    congr 2
    rcases Nat.eq_zero_or_pos (ctzN 32 a) with h0 | h0
    · rw [h0] at a1 ⊢
      simp only [Nat.shiftRight_zero] at *
      rw [Nat.gcd_comm, ← gcd_strip b a _ _ b2 a1, Nat.gcd_comm]
    · have h0' : ctzN 32 b = 0 := by omega
      rw [h0'] at b1 ⊢
      simp only [Nat.shiftRight_zero] at *
      rw [← gcd_strip a b _ _ a2 b1]

example : coprimeNonzero 35 64 = .ok true ∧ coprimeNonzero 21 14 = .ok false := by decide +kernel

/-! ## FindAnotherCoprime -/

theorem findLoop_spec (size limit inc target : Nat) (hs : 0 < size) (hs' : size < 2 ^ 32)
    (hlim : limit < 2 ^ 32) (hinc : inc = 1 ∨ inc = 2) (htc : Nat.gcd target size = 1)
    (htl : target < limit) : ∀ (fuel x : Nat), 0 < x → (∃ k, target = x + k * inc ∧ k < fuel) →
    ∃ y, findLoop size limit inc fuel x = .ok y ∧ Nat.gcd y size = 1 ∧ x ≤ y ∧ y ≤ target := by
  intro fuel
  induction fuel with
  | zero => rintro x _ ⟨k, _, h⟩; omega
  | succ n ih =>
    rintro x hx ⟨k, hk, hkn⟩
    have hxt : x ≤ target := by rw [hk]; exact Nat.le_add_right _ _
    unfold findLoop
    rw [if_pos (by omega), C15_coprimeNonzero x size hx hs (by omega) hs']
    simp only [bind, Except.bind, pure, Except.pure]
    by_cases hg : Nat.gcd x size = 1
    · simp only [hg, beq_self_eq_true, if_true]
      exact ⟨x, rfl, hg, le_refl _, hxt⟩
    · rw [if_neg (by simpa using hg)]
      have hk0 : k ≠ 0 := by
        rintro rfl
        apply hg
        rw [← htc, hk]; simp
      obtain ⟨j, rfl⟩ : ∃ j, k = j + 1 := ⟨k - 1, by omega⟩
      have e : (x + inc) % 2 ^ 32 = x + inc := Nat.mod_eq_of_lt (by
        have : x + inc ≤ target := by rw [hk, Nat.add_mul]; omega
        omega)
      rw [e]
      obtain ⟨y, h1, h2, h3, h4⟩ := ih (x + inc) (by omega) ⟨j, by rw [hk]; ring, by omega⟩
      exact ⟨y, h1, h2, by omega, h4⟩

/-- **C15 (FindAnotherCoprime).** As long as `start + 16 * size` fits in 32 bits, the search never
reaches `HWY_UNREACHABLE` and returns a number coprime to `size`, at least `start` when `size > 2`. -/
theorem C15_findAnotherCoprime (size start : Nat) (h0 : 0 < size) (hfit : start + size * 16 < 2 ^ 32) :
    ∃ c, findAnotherCoprime size start = .ok c ∧ Nat.gcd c size = 1 ∧ c ≤ start + size + 2 ∧
      (2 < size → start ≤ c) := by
  unfold findAnotherCoprime
  by_cases h : size ≤ 2
  · rw [if_pos h]; exact ⟨1, rfl, by simp, by omega, fun h' => by omega⟩
  · rw [if_neg h]
    simp only
    have e1 : size * 16 % 2 ^ 32 = size * 16 := Nat.mod_eq_of_lt (by omega)
    have e2 : (start + size * 16) % 2 ^ 32 = start + size * 16 := Nat.mod_eq_of_lt (by omega)
    rw [e1, e2]
    have hor : (start ||| 1) = start + (1 - start % 2) := by
      have h1 := Nat.div_add_mod start 2
      have h2 := Nat.mod_two_eq_zero_or_one start
      apply Nat.eq_of_testBit_eq
      intro i
      rw [Nat.testBit_or]
      rcases h2 with h2 | h2
      · rw [h2, show start + (1 - 0) = 2 ^ 1 * (start / 2) + 1 by omega]
        rw [show start.testBit i = (2 ^ 1 * (start / 2) + 0).testBit i by congr 1; omega]
        rw [Nat.testBit_two_pow_mul_add _ (by norm_num), Nat.testBit_two_pow_mul_add _ (by norm_num)]
        by_cases hi : i < 1
        · simp [hi]
        · have hi' : i ≠ 0 := by omega
          have h1i : Nat.testBit 1 i = false := by
            rw [← Bool.not_eq_true, Nat.testBit_one_eq_true_iff_self_eq_zero]; exact hi'
          simp [hi, h1i]
      · rw [h2]
        rcases Nat.eq_zero_or_pos i with hi | hi
        · subst hi; simp [h2]
        · have hi' : i ≠ 0 := by omega
          have h1i : Nat.testBit 1 i = false := by
            rw [← Bool.not_eq_true, Nat.testBit_one_eq_true_iff_self_eq_zero]; exact hi'
          simp [h1i]
    have hxodd : (start ||| 1) % 2 = 1 := by rw [hor]; omega
    have hxpos : 0 < (start ||| 1) := by omega
    generalize hx : start ||| 1 = x at *
    have hx1 : start ≤ x ∧ x ≤ start + 1 := by omega
    -- the target: the first number ≥ x congruent to 1 modulo size
    have tgt : ∃ t, x ≤ t ∧ t < x + size ∧ t % size = 1 := by
      have hm : x % size < size := Nat.mod_lt _ h0
      have hdm := Nat.div_add_mod x size
      by_cases hc : x % size ≤ 1
      · refine ⟨x + (1 - x % size), by omega, by omega, ?_⟩
        rw [show x + (1 - x % size) = size * (x / size) + 1 by omega, Nat.mul_add_mod]
        exact Nat.mod_eq_of_lt (by omega)
      · refine ⟨x + (size + 1 - x % size), by omega, by omega, ?_⟩
        rw [show x + (size + 1 - x % size) = size * (x / size + 1) + 1 by
          rw [Nat.mul_add]; omega, Nat.mul_add_mod]
        exact Nat.mod_eq_of_lt (by omega)
    obtain ⟨t, t1, t2, t3⟩ := tgt
    have htc : Nat.gcd t size = 1 := by
      rw [Nat.gcd_comm, Nat.gcd_rec, t3]; simp
    by_cases hodd : size % 2 = 1
    · rw [if_pos hodd]
      obtain ⟨y, h1, h2, h3, h4⟩ := findLoop_spec size (start + size * 16) 1 t h0 (by omega) (by omega)
        (Or.inl rfl) htc (by omega) (size * 16 + 1) x hxpos ⟨t - x, by omega, by omega⟩
      exact ⟨y, h1, h2, by omega, fun _ => by omega⟩
    · rw [if_neg hodd]
      have htodd : t % 2 = 1 := by
        have hd : 2 ∣ size := by omega
        have := Nat.mod_mod_of_dvd t hd
        rw [t3] at this; omega
      obtain ⟨y, h1, h2, h3, h4⟩ := findLoop_spec size (start + size * 16) 2 t h0 (by omega) (by omega)
        (Or.inr rfl) htc (by omega) (size * 16 + 1) x hxpos ⟨(t - x) / 2, by omega, by omega⟩
      exact ⟨y, h1, h2, by omega, fun _ => by omega⟩

example : findAnotherCoprime 64 (5 * 257 + 4 * 13) = .ok 1337 := by decide +kernel

/-! ## Iteration order -/

theorem next_eq (c n cur : Nat) (v : Divisor64) (hn : 0 < n) (hn' : n < 2 ^ 32)
    (hv : ∀ m : BitVec 64, (v.remainder m).toNat = m.toNat % n) (hsum : cur + c < 2 ^ 32) :
    next c cur v = (cur + c) % n := by
  unfold next
  rw [hv, BitVec.toNat_ofNat, Nat.mod_eq_of_lt hsum, Nat.mod_eq_of_lt (by omega : cur + c < 2 ^ 64)]
  have := Nat.mod_lt (cur + c) hn
  exact Nat.mod_eq_of_lt (by omega)

theorem iotaSeq_eq (c n : Nat) (v : Divisor64) (hn : 0 < n) (hn' : n < 2 ^ 32)
    (hv : ∀ m : BitVec 64, (v.remainder m).toNat = m.toNat % n) (hfit : n + c ≤ 2 ^ 32) :
    ∀ (k cur : Nat), cur < n →
    iotaSeq c v k cur = (List.range k).map (fun i => (cur + i * c) % n) := by
  intro k
  induction k with
  | zero => intro cur _; rfl
  | succ k ih =>
    intro cur hcur
    rw [iotaSeq, next_eq c n cur v hn hn' hv (by omega), ih _ (Nat.mod_lt _ hn), List.range_succ_eq_map,
      List.map_cons, List.map_map]
    congr 1
    · simp [Nat.mod_eq_of_lt hcur]
    · apply List.map_congr_left
      intro i _
      simp only [Function.comp]
      rw [Nat.mod_add_mod, Nat.succ_eq_add_one, Nat.add_mul]
      congr 1; ring

/-- **C15 (visiting order).** With a step coprime to the number of workers, `n` successive values of
`Next` starting from any worker are pairwise different and below `n`: every worker is visited exactly
once. -/
theorem C15_visits_each_once (c n cur : Nat) (hn : 0 < n) (hcur : cur < n) (hfit : n + c ≤ 2 ^ 32)
    (hc : Nat.gcd c n = 1) (hn' : n < 2 ^ 32) :
    ∃ v, Divisor64.make (BitVec.ofNat 64 n) = .ok v ∧
      (iotaSeq c v n cur).Nodup ∧ (∀ w, w ∈ iotaSeq c v n cur ↔ w < n) := by
  obtain ⟨v, hv, _, hspec⟩ := C04_divisor64 (BitVec.ofNat 64 n) (by
    intro h
    have := congrArg BitVec.toNat h
    rw [BitVec.toNat_ofNat] at this
    simp at this; omega)
  have hdn : (BitVec.ofNat 64 n).toNat = n := by
    rw [BitVec.toNat_ofNat]; exact Nat.mod_eq_of_lt (by omega)
  have hrem : ∀ m : BitVec 64, (v.remainder m).toNat = m.toNat % n := fun m => by
    rw [(hspec m).2, hdn]
  have hseq := iotaSeq_eq c n v hn (by omega) hrem hfit n cur hcur
  have hinj : ∀ i j, i < n → j < n → (cur + i * c) % n = (cur + j * c) % n → i = j := by
    intro i j hi hj h
    have h1 : i * c ≡ j * c [MOD n] := Nat.ModEq.add_left_cancel' cur h
    have h2 : i ≡ j [MOD n] := Nat.ModEq.cancel_right_of_coprime (by rw [Nat.gcd_comm]; exact hc) h1
    unfold Nat.ModEq at h2
    rwa [Nat.mod_eq_of_lt hi, Nat.mod_eq_of_lt hj] at h2
  have hnd : (iotaSeq c v n cur).Nodup := by
    rw [hseq]
    apply List.Nodup.map_on _ List.nodup_range
    intro i hi j hj h
    exact hinj i j (List.mem_range.mp hi) (List.mem_range.mp hj) h
  refine ⟨v, hv, hnd, ?_⟩
  have hsub : ∀ w, w ∈ iotaSeq c v n cur → w < n := by
    intro w hw
    rw [hseq] at hw
    obtain ⟨i, _, rfl⟩ := List.mem_map.mp hw
    exact Nat.mod_lt _ hn
  intro w
  refine ⟨hsub w, fun hw => ?_⟩
  have hlen : (iotaSeq c v n cur).length = n := by rw [hseq]; simp
  have hperm : (iotaSeq c v n cur).Subperm (List.range n) :=
    hnd.subperm (fun x hx => List.mem_range.mpr (hsub x hx))
  have : (iotaSeq c v n cur).Perm (List.range n) :=
    List.Subperm.perm_of_length_le hperm (by rw [hlen]; simp)
  exact this.mem_iff.mpr (List.mem_range.mpr hw)

/-- **C15 (victims).** For every pool size up to the maximum of 64 workers and every worker, the
constructor builds a victim table of `min 4 n` distinct workers below `n` whose first entry is the
worker itself (so no later entry is). -/
theorem C15_victims (n worker : Nat) (hn : 0 < n) (hn' : n ≤ 64) (hw : worker < n) :
    ∃ v vs, Divisor64.make (BitVec.ofNat 64 n) = .ok v ∧ victims worker n v = .ok vs ∧
      vs.length = min 4 n ∧ vs.head? = some worker ∧ vs.Nodup ∧ ∀ x ∈ vs, x < n := by
  obtain ⟨c, hc, hg, hcle, _⟩ := C15_findAnotherCoprime n ((worker + 1) * 257 + worker * 13) hn (by omega)
  obtain ⟨v, hv, hnd, hmem⟩ := C15_visits_each_once c n worker hn hw (by omega) hg (by omega)
  have hpre : ∀ k, k ≤ n → iotaSeq c v k worker <+: iotaSeq c v n worker := by
    intro k
    generalize worker = cur
    induction k generalizing cur n with
    | zero => intro _; exact List.nil_prefix
    | succ k ih =>
      intro hk
      obtain ⟨m, rfl⟩ : ∃ m, n = m + 1 := ⟨n - 1, by omega⟩
      simp only [iotaSeq]
      rw [List.cons_prefix_cons]
      refine ⟨rfl, ?_⟩
      clear ih
      have gen : ∀ (a b cur : Nat), a ≤ b → iotaSeq c v a cur <+: iotaSeq c v b cur := by
        intro a
        induction a with
        | zero => intro b cur _; exact List.nil_prefix
        | succ a iha =>
          intro b cur hab
          obtain ⟨b', rfl⟩ : ∃ b', b = b' + 1 := ⟨b - 1, by omega⟩
          simp only [iotaSeq]
          rw [List.cons_prefix_cons]
          exact ⟨rfl, iha b' _ (by omega)⟩
      exact gen k m _ (by omega)
  have hlen : ∀ k cur, (iotaSeq c v k cur).length = k := by
    intro k
    induction k with
    | zero => intro _; rfl
    | succ k ih => intro cur; simp [iotaSeq, ih]
  have hp := hpre (min 4 n) (by omega)
  refine ⟨v, iotaSeq c v (min 4 n) worker, hv, ?_, hlen _ _, ?_, hp.sublist.nodup hnd, ?_⟩
  · simp [victims, hc, bind, Except.bind, pure, Except.pure]
  · obtain ⟨k, hk⟩ : ∃ k, min 4 n = k + 1 := ⟨min 4 n - 1, by omega⟩
    rw [hk]; rfl
  · intro x hx
    exact (hmem x).mp (hp.subset hx)

example : ∃ v, Divisor64.make (BitVec.ofNat 64 6) = .ok v ∧ victims 4 6 v = .ok [4, 3, 2, 1] := by
  exact ⟨_, rfl, by decide +kernel⟩

/-! ## DivideRangeAmongWorkers -/

theorem divideLoop_spec (q r : Nat) : ∀ (k w b : Nat),
    b + k * q + (r - w) < 2 ^ 64 →
    (divideLoop q r k w b).length = k ∧
    (∀ i, (h : i < (divideLoop q r k w b).length) →
      (divideLoop q r k w b)[i].1 = b + i * q + (min (w + i) r - min w r) ∧
      (divideLoop q r k w b)[i].2 = b + (i + 1) * q + (min (w + i + 1) r - min w r)) := by
  intro k
  induction k with
  | zero => intro w b _; simp [divideLoop]
  | succ k ih =>
    intro w b hb
    have e : (b + q + (if w < r then 1 else 0)) % 2 ^ 64 = b + q + (if w < r then 1 else 0) := by
      apply Nat.mod_eq_of_lt
      rw [Nat.add_mul] at hb
      split <;> omega
    obtain ⟨i1, i2⟩ := ih (w + 1) (b + q + (if w < r then 1 else 0)) (by
      rw [Nat.add_mul] at hb
      split <;> omega)
    simp only [divideLoop, e, List.length_cons, i1, true_and]
    intro i hi
    rcases Nat.eq_zero_or_pos i with h0 | h0
    · subst h0
      simp only [List.getElem_cons_zero]
      constructor
      · simp
      · split <;> omega
    · obtain ⟨j, rfl⟩ : ∃ j, i = j + 1 := ⟨i - 1, by omega⟩
      simp only [List.getElem_cons_succ]
      obtain ⟨a1, a2⟩ := i2 j (by omega)
      rw [a1, a2]
      constructor
      · rw [Nat.add_mul j 1]; split <;> omega
      · rw [Nat.add_mul (j + 1) 1]; split <;> omega

/-- Consecutive intervals `[lo, hi)` starting at `b` and ending at `e`. -/
def Chain : Nat → List (Nat × Nat) → Nat → Prop
  | b, [], e => b = e
  | b, (lo, hi) :: rest, e => lo = b ∧ lo ≤ hi ∧ Chain hi rest e

theorem chain_of_closed (f : Nat → Nat) (hf : ∀ i, f i ≤ f (i + 1)) : ∀ (l : List (Nat × Nat)) (s : Nat),
    (∀ i, (h : i < l.length) → l[i].1 = f (s + i) ∧ l[i].2 = f (s + i + 1)) →
    Chain (f s) l (f (s + l.length)) := by
  intro l
  induction l with
  | nil => intro s _; simp [Chain]
  | cons p l ih =>
    intro s h
    obtain ⟨lo, hi⟩ := p
    obtain ⟨h1, h2⟩ := h 0 (by simp)
    simp at h1 h2
    refine ⟨h1, by rw [h1, h2]; exact hf s, ?_⟩
    rw [h2]
    have := ih (s + 1) (fun i hi => by
      have := h (i + 1) (by simpa using hi)
      simp only [List.getElem_cons_succ] at this
      rw [show s + 1 + i = s + (i + 1) by omega]
      exact this)
    rw [List.length_cons, show s + (l.length + 1) = s + 1 + l.length by omega]
    exact this

/-- **C14.** For every `begin ≤ end` (64-bit) and every number of workers, the ranges are consecutive,
start at `begin`, end at `end`, one per worker; each has `num_tasks / n` tasks plus one for the first
`num_tasks % n` workers (hence sizes differ by at most one, larger ones first). -/
theorem C14_divideRange (b e n : Nat) (hbe : b ≤ e) (he : e < 2 ^ 64) (hn : 0 < n) (hn' : n < 2 ^ 64) :
    ∃ v, Divisor64.make (BitVec.ofNat 64 n) = .ok v ∧
      (divideRange b e v).length = n ∧ Chain b (divideRange b e v) e ∧
      ∀ i, (h : i < (divideRange b e v).length) →
        (divideRange b e v)[i].2 - (divideRange b e v)[i].1 =
          (e - b) / n + (if i < (e - b) % n then 1 else 0) := by
  obtain ⟨v, hv, hd, hspec⟩ := C04_divisor64 (BitVec.ofNat 64 n) (by
    intro h
    have := congrArg BitVec.toNat h
    rw [BitVec.toNat_ofNat] at this
    simp at this; omega)
  have hdn : (BitVec.ofNat 64 n).toNat = n := by
    rw [BitVec.toNat_ofNat]; exact Nat.mod_eq_of_lt hn'
  have hnum : (2 ^ 64 + e - b) % 2 ^ 64 = e - b := by omega
  have hnv : (BitVec.ofNat 64 (e - b)).toNat = e - b := by
    rw [BitVec.toNat_ofNat]; exact Nat.mod_eq_of_lt (by omega)
  have hq := (hspec (BitVec.ofNat 64 (e - b))).1
  have hr := (hspec (BitVec.ofNat 64 (e - b))).2
  rw [hnv, hdn] at hq hr
  have hdm := Nat.div_add_mod (e - b) n
  have hml := Nat.mod_lt (e - b) hn
  have hdef : divideRange b e v = divideLoop ((e - b) / n) ((e - b) % n) n 0 b := by
    simp only [divideRange, hd, hdn, hnum, hq, hr]
  refine ⟨v, hv, ?_⟩
  rw [hdef]
  clear hdef hq hr
  generalize (e - b) / n = q at *
  generalize (e - b) % n = r at *
  have hqn : n * q = q * n := Nat.mul_comm _ _
  obtain ⟨l1, l2⟩ := divideLoop_spec q r n 0 b (by rw [← hqn] at *; omega)
  refine ⟨l1, ?_, ?_⟩
  · have := chain_of_closed (fun i => b + i * q + (min i r)) (by
      intro i; rw [Nat.add_mul]; omega) (divideLoop q r n 0 b) 0 (by
      intro i hi
      obtain ⟨a1, a2⟩ := l2 i hi
      simp only [Nat.zero_add, Nat.zero_min, Nat.sub_zero] at a1 a2 ⊢
      exact ⟨a1, a2⟩)
    rw [l1] at this
    simp only [Nat.zero_add, Nat.zero_mul, Nat.zero_min, Nat.add_zero] at this
    rw [show b + n * q + min n r = e by omega] at this
    exact this
  · intro i hi
    obtain ⟨a1, a2⟩ := l2 i hi
    rw [a1, a2, Nat.add_mul]
    split <;> omega

/-- The property of consecutive ranges in terms of tasks: concatenated they enumerate `[b, e)`. -/
theorem chain_tasks : ∀ (l : List (Nat × Nat)) (b e : Nat), Chain b l e →
    b ≤ e ∧ l.flatMap (fun p => List.range' p.1 (p.2 - p.1)) = List.range' b (e - b) := by
  intro l
  induction l with
  | nil => intro b e h; simp [Chain] at h; subst h; simp
  | cons p l ih =>
    intro b e h
    obtain ⟨lo, hi⟩ := p
    obtain ⟨rfl, h2, h3⟩ := h
    obtain ⟨i1, i2⟩ := ih hi e h3
    refine ⟨by omega, ?_⟩
    rw [List.flatMap_cons, i2]
    have := @List.range'_append lo (hi - lo) (e - hi) 1
    simp only [Nat.one_mul] at this
    rw [show lo + (hi - lo) = hi by omega] at this
    rw [this]; congr 1; omega

/-- **C14 (tasks).** The ranges together contain every task of `[begin, end)` exactly once, in order. -/
theorem C14_tasks (b e n : Nat) (hbe : b ≤ e) (he : e < 2 ^ 64) (hn : 0 < n) (hn' : n < 2 ^ 64) :
    ∃ v, Divisor64.make (BitVec.ofNat 64 n) = .ok v ∧
      (divideRange b e v).flatMap (fun p => List.range' p.1 (p.2 - p.1)) = List.range' b (e - b) := by
  obtain ⟨v, hv, _, hch, _⟩ := C14_divideRange b e n hbe he hn hn'
  exact ⟨v, hv, (chain_tasks _ _ _ hch).2⟩

example : ∃ v, Divisor64.make (BitVec.ofNat 64 3) = .ok v ∧
    divideRange 10 21 v = [(10, 14), (14, 18), (18, 21)] := ⟨_, rfl, by decide +kernel⟩

end Pool
end Hwy
