import Verif.NetSort
import Verif.SortArr

/-! # `BaseCase` sorts -/

namespace Hwy
namespace VQ

open Net

variable {α : Type}

/-- The padding sorts last. -/
def IsLast (lt : α → α → Bool) (pad : α) : Prop := ∀ x, lt pad x = false

theorem sorted_perm_eq {lt : α → α → Bool} (ha : Antisymm lt) {a b : List α} (h : a.Perm b)
    (h1 : Sorted lt a) (h2 : Sorted lt b) : a = b := by
  refine List.Perm.eq_of_pairwise (le := fun x y => lt y x = false) ?_ h1 h2 h
  intro x y _ _ hxy hyx
  exact (ha y x hxy hyx).symm

/-- Sorting together with padding at the end sorts the keys themselves. -/
theorem unpad {lt : α → α → Bool} (ho : IsOrder lt) (ha : Antisymm lt) {pad : α} (hp : IsLast lt pad)
    (ks out : List α) (k : Nat) (hs : Sorted lt out) (hperm : out.Perm (ks ++ List.replicate k pad)) :
    Sorted lt (out.take ks.length) ∧ (out.take ks.length).Perm ks := by
  let le : α → α → Bool := fun x y => !lt y x
  have hsorted : Sorted lt (ks.mergeSort le) := by
    have := List.pairwise_mergeSort (le := le) (fun a b c h1 h2 => by
      simp only [le, Bool.not_eq_true'] at *; exact ho.le_trans h1 h2) (fun a b => by
      simp only [le, Bool.or_eq_true, Bool.not_eq_true']
      cases h : lt b a with
      | false => left; rfl
      | true => right; exact ho.asymm h) ks
    refine this.imp ?_
    intro a b h
    simpa [le] using h
  have hp1 : (ks.mergeSort le).Perm ks := List.mergeSort_perm ks le
  have hs2 : Sorted lt (ks.mergeSort le ++ List.replicate k pad) := by
    unfold Sorted
    rw [List.pairwise_append]
    refine ⟨hsorted, ?_, ?_⟩
    · rw [List.pairwise_replicate]; right; exact ho.irrefl pad
    · intro a _ b hb
      rw [List.mem_replicate] at hb
      rw [hb.2]; exact hp a
  have heq := sorted_perm_eq ha (hperm.trans (List.Perm.append_right _ hp1.symm)) hs hs2
  have hlen : (ks.mergeSort le).length = ks.length := hp1.length_eq
  have htake : out.take ks.length = ks.mergeSort le := by
    rw [heq, ← hlen, List.take_left]
  rw [htake]
  exact ⟨hsorted, hp1⟩

/-! ### Memory -/

theorem padLoop_spec (pad : α) (Nmax stop : Nat) (hN : 0 < Nmax) : ∀ fuel i (buf : List α), stop < i + fuel * Nmax → 0 < fuel →
    i + Nmax ≤ buf.length → (∀ j, i < j → j < stop → Nmax ∣ (j - i) → j + Nmax ≤ buf.length) →
    ∃ b e, padLoop pad Nmax stop fuel i buf = .ok b ∧ b.length = buf.length ∧ stop ≤ e ∧ i < e ∧
      ∀ p, b.getD p pad = if i ≤ p ∧ p < e then pad else buf.getD p pad := by
  intro fuel
  induction fuel with
  | zero => intro i buf _ h; omega
  | succ fuel ih =>
    intro i buf hf _ hi hj
    obtain ⟨b1, hb1, hl1, hg1⟩ := storeU_spec pad (List.replicate Nmax pad) buf i (by simpa using hi)
    unfold padLoop
    rw [hb1, ok_bind]
    simp only [List.length_replicate] at hg1
    have hg1' : ∀ p, b1.getD p pad = if i ≤ p ∧ p < i + Nmax then pad else buf.getD p pad := by
      intro p
      rw [hg1 p]
      split
      · rw [getD_replicate']; split <;> rfl
      · rfl
    by_cases hc : i + Nmax < stop
    · rw [if_pos hc]
      rw [Nat.add_mul] at hf
      have hfpos : 0 < fuel := by
        rcases Nat.eq_zero_or_pos fuel with h0 | h0
        · subst h0; omega
        · exact h0
      obtain ⟨b, e, hb, hl, he1, he2, hg⟩ := ih (i + Nmax) b1 (by omega) hfpos
        (by rw [hl1]; exact hj (i + Nmax) (by omega) hc ⟨1, by omega⟩)
        (fun j h1 h2 h3 => by
          rw [hl1]
          refine hj j (by omega) h2 ?_
          have : j - i = (j - (i + Nmax)) + Nmax := by omega
          rw [this]; exact Nat.dvd_add h3 (Nat.dvd_refl _))
      refine ⟨b, e, hb, by rw [hl, hl1], he1, by omega, fun p => ?_⟩
      rw [hg p, hg1' p]
      by_cases h1 : i + Nmax ≤ p ∧ p < e
      · rw [if_pos h1, if_pos (by omega)]
      · rw [if_neg h1]
        by_cases h2 : i ≤ p ∧ p < i + Nmax
        · rw [if_pos h2, if_pos (by omega)]
        · rw [if_neg h2, if_neg (by omega)]
    · rw [if_neg hc]
      exact ⟨b1, i + Nmax, rfl, hl1, by omega, by omega, hg1'⟩

theorem copyDown_spec (pad : α) (Nmax stop : Nat) (hN : 0 < Nmax) (hs : Nmax ≤ stop) (keys : List α) :
    ∀ fuel e (buf : List α), e < fuel * Nmax → stop < e → e ≤ keys.length → e ≤ buf.length →
    ∃ b, copyDown Nmax stop keys fuel e buf = .ok b ∧ b.length = buf.length ∧
      ∀ p, stop ≤ p → b.getD p pad = if p < e then keys.getD p pad else buf.getD p pad := by
  intro fuel
  induction fuel with
  | zero => intro e buf h; omega
  | succ fuel ih =>
    intro e buf hf hse hk hb
    unfold copyDown
    rw [if_neg (by omega)]
    obtain ⟨v, hv, hvl, hvg⟩ := loadU_spec pad Nmax keys (e - Nmax) (by omega)
    obtain ⟨b1, hb1, hl1, hg1⟩ := storeU_spec pad v buf (e - Nmax) (by omega)
    rw [hv, ok_bind, hb1, ok_bind]
    rw [Nat.add_mul] at hf
    have hg1' : ∀ p, b1.getD p pad = if e - Nmax ≤ p ∧ p < e then keys.getD p pad else buf.getD p pad := by
      intro p
      rw [hg1 p, hvl, show e - Nmax + Nmax = e by omega]
      split
      · rw [hvg _ (by omega)]; congr 1; omega
      · rfl
    by_cases hc : e - Nmax > stop
    · rw [if_pos hc]
      obtain ⟨b, hb2, hl2, hg2⟩ := ih (e - Nmax) b1 (by omega) hc (by omega) (by omega)
      refine ⟨b, hb2, by rw [hl2, hl1], fun p hp => ?_⟩
      rw [hg2 p hp, hg1' p]
      by_cases h1 : p < e - Nmax
      · rw [if_pos h1, if_pos (by omega)]
      · rw [if_neg h1]
        by_cases h2 : p < e
        · rw [if_pos h2, if_pos (by omega)]
        · rw [if_neg h2, if_neg (by omega)]
    · rw [if_neg hc]
      refine ⟨b1, rfl, hl1, fun p hp => ?_⟩
      rw [hg1' p]
      by_cases h2 : p < e
      · rw [if_pos h2, if_pos (by omega)]
      · rw [if_neg h2, if_neg (by omega)]

theorem min_pow_dvd (a b : Nat) : min (2 ^ a) (2 ^ b) ∣ 2 ^ b := by
  rcases Nat.le_total a b with h | h
  · rw [Nat.min_eq_left (Nat.pow_le_pow_right (by decide) h)]; exact Nat.pow_dvd_pow 2 h
  · rw [Nat.min_eq_right (Nat.pow_le_pow_right (by decide) h)]

/-- After `CopyHalfToPaddedBuf`, `buf` holds the second half of the matrix, padded. -/
theorem copyHalf_spec (pad : α) (k w n num : Nat) (keys buf : List α) (h1 : 2 ^ k * 2 ^ w < num)
    (h2 : num ≤ 2 ^ (k + 1) * 2 ^ w) (hkeys : num ≤ keys.length) (hbuf : 2 ^ (k + 1) * 2 ^ w + 2 ^ n ≤ buf.length)
    (hwn : w ≤ n) :
    ∃ b, copyHalfToPaddedBuf pad (2 ^ (k + 1)) (2 ^ w) (2 ^ n) num keys buf = .ok b ∧ b.length = buf.length ∧
      ∀ p, 2 ^ k * 2 ^ w ≤ p → p < 2 ^ (k + 1) * 2 ^ w → b.getD p pad = if p < num then keys.getD p pad else pad := by
  unfold copyHalfToPaddedBuf
  have hhalf : 2 ^ (k + 1) / 2 = 2 ^ k := by rw [Nat.pow_succ]; omega
  have hle : 2 ^ w ≤ 2 ^ n := Nat.pow_le_pow_right (by decide) hwn
  rw [hhalf, Nat.min_eq_right hle]
  have hkw : 2 ^ k * 2 ^ w = 2 ^ (k + w) := (Nat.pow_add 2 k w).symm
  have hRP : 2 ^ (k + 1) * 2 ^ w = 2 * (2 ^ k * 2 ^ w) := by rw [Nat.pow_succ]; rw [Nat.mul_comm (2 ^ k) 2, Nat.mul_assoc]
  have hR1 : (2 ^ (k + 1) - 1) * 2 ^ w + 2 ^ w = 2 ^ (k + 1) * 2 ^ w := by
    have := Nat.two_pow_pos (k + 1)
    rw [← Nat.succ_mul]; congr 1; omega
  simp only [hR1]
  have hd : min (2 ^ n) (2 ^ k * 2 ^ w) ∣ 2 ^ k * 2 ^ w := by rw [hkw]; exact min_pow_dvd _ _
  have hpos : 0 < min (2 ^ n) (2 ^ k * 2 ^ w) := by
    have := Nat.two_pow_pos n
    have := Nat.mul_pos (Nat.two_pow_pos k) (Nat.two_pow_pos w)
    omega
  have hm1 : min (2 ^ n) (2 ^ k * 2 ^ w) ≤ 2 ^ n := Nat.min_le_left _ _
  have hm2 : min (2 ^ n) (2 ^ k * 2 ^ w) ≤ 2 ^ k * 2 ^ w := Nat.min_le_right _ _
  rw [hRP] at h2 hbuf ⊢
  generalize min (2 ^ n) (2 ^ k * 2 ^ w) = Nmax at *
  generalize 2 ^ k * 2 ^ w = H at *
  have hi0 : num / Nmax * Nmax ≤ num := Nat.div_mul_le_self _ _
  have hi1 : num < num / Nmax * Nmax + Nmax := by
    have h3 := div_mul_mod num Nmax
    have h4 := Nat.mod_lt num hpos
    omega
  have hdi : Nmax ∣ num / Nmax * Nmax := ⟨_, Nat.mul_comm _ _⟩
  have hd2 : Nmax ∣ 2 * H := Nat.dvd_trans hd ⟨2, Nat.mul_comm _ _⟩
  generalize num / Nmax * Nmax = i0 at *
  have hfuel : num + 2 * H + 1 ≤ (num + 2 * H + 1) * Nmax := Nat.le_mul_of_pos_right _ hpos
  obtain ⟨b1, e, hb1, hl1, he1, he2, hg1⟩ := padLoop_spec pad Nmax (2 * H) hpos (num + 2 * H + 1) i0 buf (by omega) (by omega)
    (by omega) (fun j hj1 hj2 hj3 => by
      have hdj : Nmax ∣ j := by
        have : j = (j - i0) + i0 := by omega
        rw [this]; exact Nat.dvd_add hj3 hdi
      obtain ⟨q, hq⟩ := Nat.dvd_sub hd2 hdj
      have : 1 ≤ q := by
        rcases Nat.eq_zero_or_pos q with h0 | h0
        · subst h0; omega
        · exact h0
      have h5 : Nmax * 1 ≤ Nmax * q := Nat.mul_le_mul_left _ this
      rw [← hq] at h5
      omega)
  have hfuel2 : num + 1 ≤ (num + 1) * Nmax := Nat.le_mul_of_pos_right _ hpos
  obtain ⟨b2, hb2, hl2, hg2⟩ := copyDown_spec pad Nmax H hpos hm2 keys (num + 1) num b1 (by omega) h1 hkeys (by omega)
  refine ⟨b2, ?_, by rw [hl2, hl1], fun p hp1 hp2 => ?_⟩
  · rw [hb1, ok_bind]; exact hb2
  · rw [hg2 p hp1]
    split
    · rfl
    · rw [hg1 p, if_pos (by omega)]

theorem rowList_length (P : Nat) (s : State α) (r : Nat) : (rowList P s r).length = P := by simp [rowList]

theorem rowList_getD (pad : α) (P : Nat) (s : State α) (r c : Nat) (hc : c < P) : (rowList P s r).getD c pad = s r c := by
  unfold rowList; rw [getD_map_range, if_pos hc]

/-- Storing rows `lo, .., lo + cnt - 1`. -/
theorem storeRows_spec (pad : α) (P : Nat) (hP : 0 < P) (s : State α) (a : List α) (lo cnt : Nat) (h : (lo + cnt) * P ≤ a.length) :
    ∃ b, storeRows P s a (List.range' lo cnt) = .ok b ∧ b.length = a.length ∧
      ∀ p, b.getD p pad = if lo * P ≤ p ∧ p < (lo + cnt) * P then s (p / P) (p % P) else a.getD p pad := by
  obtain ⟨b, hb, hI⟩ := foldlM_spec (fun (a : List α) r => Vec.storeU (rowList P s r) a (r * P))
    (fun t b => b.length = a.length ∧
      ∀ p, b.getD p pad = if lo * P ≤ p ∧ p < (lo + t) * P then s (p / P) (p % P) else a.getD p pad)
    (List.range' lo cnt) 0 a ⟨rfl, fun p => by rw [if_neg (by rw [Nat.add_zero]; omega)]⟩ (by
      intro i r b hr ⟨hl, hg⟩
      rw [Nat.zero_add] at hg ⊢
      have hi : i < cnt := by
        rcases Nat.lt_or_ge i cnt with h | h
        · exact h
        · rw [List.getElem?_eq_none (by simpa using h)] at hr; simp at hr
      have hr' : r = lo + i := by
        rw [List.getElem?_range' hi] at hr; simp at hr; omega
      subst hr'
      have hm : (lo + i + 1) * P ≤ (lo + cnt) * P := Nat.mul_le_mul_right _ (by omega)
      have hm2 : (lo + i + 1) * P = (lo + i) * P + P := by rw [Nat.add_mul (lo + i)]; omega
      have hm3 : lo * P ≤ (lo + i) * P := Nat.mul_le_mul_right _ (by omega)
      obtain ⟨b2, hb2, hl2, hg2⟩ := storeU_spec pad (rowList P s (lo + i)) b ((lo + i) * P) (by
        rw [rowList_length, hl]; omega)
      refine ⟨b2, hb2, by rw [hl2, hl], fun p => ?_⟩
      rw [hg2 p, rowList_length, hg p, show lo + (i + 1) = lo + i + 1 by omega, hm2]
      by_cases h1 : (lo + i) * P ≤ p ∧ p < (lo + i) * P + P
      · rw [if_pos h1, if_pos (by omega), rowList_getD _ _ _ _ _ (by omega)]
        have e : p = (lo + i) * P + (p - (lo + i) * P) := by omega
        have e1 : p / P = lo + i := by conv => lhs; rw [e]
                                       exact idx_div (by omega)
        have e2 : p % P = p - (lo + i) * P := by conv => lhs; rw [e]
                                                 exact idx_mod (by omega)
        rw [e1, e2]
      · rw [if_neg h1]
        by_cases h2 : lo * P ≤ p ∧ p < (lo + i) * P
        · rw [if_pos h2, if_pos (by omega)]
        · rw [if_neg h2, if_neg (by omega)])
  refine ⟨b, hb, ?_⟩
  simpa using hI

theorem copyOut_spec (pad : α) (N num : Nat) (hN : 0 < N) (buf : List α) (hb : num ≤ buf.length) :
    ∀ fuel i (keys : List α), num < i + fuel * N → i ≤ num → num ≤ keys.length → 0 < fuel →
    ∃ k, copyOut N num buf fuel i keys = .ok k ∧ k.length = keys.length ∧
      ∀ p, k.getD p pad = if i ≤ p ∧ p < num then buf.getD p pad else keys.getD p pad := by
  intro fuel
  induction fuel with
  | zero => intro i keys _ _ _ h; omega
  | succ fuel ih =>
    intro i keys hf hi hk _
    unfold copyOut
    rw [Nat.add_mul] at hf
    by_cases hc : i + N ≤ num
    · rw [if_pos hc]
      obtain ⟨v, hv, hvl, hvg⟩ := loadU_spec pad N buf i (by omega)
      obtain ⟨k1, hk1, hl1, hg1⟩ := storeU_spec pad v keys i (by omega)
      rw [hv, ok_bind, hk1, ok_bind]
      obtain ⟨k2, hk2, hl2, hg2⟩ := ih (i + N) k1 (by omega) hc (by omega) (by
        rcases Nat.eq_zero_or_pos fuel with h0 | h0
        · subst h0; omega
        · exact h0)
      refine ⟨k2, hk2, by rw [hl2, hl1], fun p => ?_⟩
      rw [hg2 p, hg1 p, hvl]
      by_cases h1 : i + N ≤ p ∧ p < num
      · rw [if_pos h1, if_pos (by omega)]
      · rw [if_neg h1]
        by_cases h2 : i ≤ p ∧ p < i + N
        · rw [if_pos h2, if_pos (by omega), hvg _ (by omega)]; congr 1; omega
        · rw [if_neg h2, if_neg (by omega)]
    · rw [if_neg hc]
      unfold Vec.safeCopyN
      obtain ⟨v, hv, hvl, hvg⟩ := loadU_spec pad (num - i) buf i (by omega)
      obtain ⟨k1, hk1, hl1, hg1⟩ := storeU_spec pad v keys i (by omega)
      rw [hv, ok_bind]
      refine ⟨k1, hk1, hl1, fun p => ?_⟩
      rw [hg1 p, hvl]
      by_cases h2 : i ≤ p ∧ p < num
      · rw [if_pos h2, if_pos (by omega), hvg _ (by omega)]; congr 1; omega
      · rw [if_neg h2, if_neg (by omega)]

theorem rowMask_length (P num r : Nat) : (rowMask P num r).length = P := by simp [rowMask]

theorem rowMask_getD (P num r c : Nat) (hc : c < P) : (rowMask P num r).getD c false = decide (r * P + c < num) := by
  unfold rowMask; rw [getD_map_range, if_pos hc]

theorem maskedLoad_spec (pad : α) (P num r : Nat) (keys : List α) (hk : num ≤ keys.length) :
    ∃ v, Vec.maskedLoad pad (rowMask P num r) keys ((r * P : Nat) : Int) = .ok v ∧ v.length = P ∧
      ∀ c, c < P → v.getD c pad = if r * P + c < num then keys.getD (r * P + c) pad else pad := by
  unfold Vec.maskedLoad
  rw [rowMask_length]
  obtain ⟨ys, hys, hlen, hq⟩ := mapM_spec (fun (i : Nat) =>
    if (rowMask P num r)[i]?.getD false then
      (if 0 ≤ ((r * P : Nat) : Int) + i then readAt keys (((r * P : Nat) : Int) + i).toNat else .error .ub)
    else .ok pad) (fun c y => y = if r * P + c < num then keys.getD (r * P + c) pad else pad) (List.range P) (by
      intro c hc
      rw [List.mem_range] at hc
      have hm := rowMask_getD P num r c hc
      rw [List.getD_eq_getElem?_getD] at hm
      simp only [hm]
      by_cases h : r * P + c < num
      · have e : (((r * P : Nat) : Int) + (c : Int)).toNat = r * P + c := by omega
        refine ⟨_, ?_, rfl⟩
        simp only [h, decide_true, if_true]
        rw [if_pos (by omega), e, readAt_getD pad (by omega)]
      · refine ⟨_, ?_, rfl⟩
        simp [h])
  refine ⟨ys, hys, by simpa using hlen, fun c hc => ?_⟩
  obtain ⟨y, hy, hyq⟩ := hq c c (by simp [hc])
  rw [List.getD_eq_getElem?_getD, hy]
  exact hyq

theorem blendedStore_spec (pad : α) (P num r : Nat) (s : State α) (a : List α) (ha : num ≤ a.length) :
    ∃ b, blendedStore (rowList P s r) (rowMask P num r) a (r * P) = .ok b ∧ b.length = a.length ∧
      ∀ p, b.getD p pad = if r * P ≤ p ∧ p < r * P + P ∧ p < num then s r (p - r * P) else a.getD p pad := by
  unfold blendedStore
  rw [if_pos (by
    rw [List.all_eq_true]
    intro j hj
    rw [rowList_length, List.mem_range] at hj
    rw [rowMask_getD P num r j hj]
    by_cases h : r * P + j < num
    · simp [show r * P + j < a.length by omega]
    · simp [h])]
  refine ⟨_, rfl, by simp, fun p => ?_⟩
  rw [rowList_length]
  simp only [List.getD_eq_getElem?_getD (l := List.mapIdx _ _), List.getElem?_mapIdx]
  by_cases hp : p < a.length
  · rw [List.getElem?_eq_getElem hp]
    simp only [Option.map_some, Option.getD_some]
    have e : a.getD p pad = a[p] := by simp [List.getD_eq_getElem?_getD, hp]
    by_cases h1 : r * P ≤ p ∧ p < r * P + P
    · rw [rowMask_getD P num r _ (by omega), rowList_getD _ _ _ _ _ (by omega)]
      have e2 : r * P + (p - r * P) = p := by omega
      rw [e2]
      by_cases h2 : p < num
      · rw [if_pos ⟨h1.1, h1.2, by simpa using h2⟩, if_pos ⟨h1.1, h1.2, h2⟩]
      · rw [if_neg (by simp [h2]), if_neg (by omega), e]
    · rw [if_neg (by omega), if_neg (by omega), e]
  · rw [List.getElem?_eq_none (Nat.not_lt.mp hp), if_neg (by omega), getD_ge _ _ _ (Nat.not_lt.mp hp)]
    rfl

theorem loadHigh_spec (mf : Bool) (pad : α) (k w n num : Nat) (keys buf : List α) (h1 : 2 ^ k * 2 ^ w < num)
    (h2 : num ≤ 2 ^ (k + 1) * 2 ^ w) (hkeys : num ≤ keys.length) (hbuf : 2 ^ (k + 1) * 2 ^ w + 2 ^ n ≤ buf.length)
    (hwn : w ≤ n) :
    ∃ hi b, loadHigh mf pad (2 ^ (k + 1)) (2 ^ w) (2 ^ n) num keys buf = .ok (hi, b) ∧ b.length = buf.length ∧
      hi.length = 2 ^ k ∧ ∀ i, i < 2 ^ k → ∀ c, c < 2 ^ w → (hi.getD i []).getD c pad =
        if (2 ^ k + i) * 2 ^ w + c < num then keys.getD ((2 ^ k + i) * 2 ^ w + c) pad else pad := by
  have hhalf : 2 ^ (k + 1) / 2 = 2 ^ k := by rw [Nat.pow_succ]; omega
  have hkk : 2 ^ (k + 1) = 2 ^ k + 2 ^ k := by rw [Nat.pow_succ]; omega
  have hnpos := Nat.two_pow_pos n
  unfold loadHigh
  rw [hhalf]
  have fin : ∀ (f : Nat → M (List α)), (∀ r ∈ List.range' (2 ^ k) (2 ^ k), ∃ v, f r = .ok v ∧
      ∀ c, c < 2 ^ w → v.getD c pad = if r * 2 ^ w + c < num then keys.getD (r * 2 ^ w + c) pad else pad) →
      ∃ hi, (List.range' (2 ^ k) (2 ^ k)).mapM f = .ok hi ∧ hi.length = 2 ^ k ∧
        ∀ i, i < 2 ^ k → ∀ c, c < 2 ^ w → (hi.getD i []).getD c pad =
        if (2 ^ k + i) * 2 ^ w + c < num then keys.getD ((2 ^ k + i) * 2 ^ w + c) pad else pad := by
    intro f hf
    obtain ⟨hi, h3, h4, h5⟩ := mapM_spec f (fun r v => ∀ c, c < 2 ^ w → v.getD c pad =
      if r * 2 ^ w + c < num then keys.getD (r * 2 ^ w + c) pad else pad) _ hf
    refine ⟨hi, h3, by simpa using h4, fun i hi' c hc => ?_⟩
    obtain ⟨y, hy, hq⟩ := h5 i (2 ^ k + i) (by rw [List.getElem?_range' hi']; simp)
    rw [List.getD_eq_getElem?_getD (l := hi), hy]
    exact hq c hc
  cases mf with
  | true =>
    simp only [if_true]
    obtain ⟨b, hb, hl, hg⟩ := copyHalf_spec pad k w n num keys buf h1 h2 hkeys hbuf hwn
    rw [hb, ok_bind]
    obtain ⟨hi, h3, h4, h5⟩ := fin (fun r => Vec.loadU (2 ^ w) b (r * 2 ^ w)) (by
      intro r hr
      rw [List.mem_range'_1] at hr
      have hm : (r + 1) * 2 ^ w ≤ 2 ^ (k + 1) * 2 ^ w := Nat.mul_le_mul_right _ (by omega)
      have hm2 : 2 ^ k * 2 ^ w ≤ r * 2 ^ w := Nat.mul_le_mul_right _ (by omega)
      rw [Nat.add_mul] at hm
      obtain ⟨v, hv, hvl, hvg⟩ := loadU_spec pad (2 ^ w) b (r * 2 ^ w) (by omega)
      refine ⟨v, hv, fun c hc => ?_⟩
      rw [hvg c hc, hg _ (by omega) (by omega)])
    rw [h3, ok_bind]
    exact ⟨hi, b, rfl, hl, h4, h5⟩
  | false =>
    simp only [Bool.false_eq_true, if_false]
    obtain ⟨hi, h3, h4, h5⟩ := fin (fun r => Vec.maskedLoad pad (rowMask (2 ^ w) num r) keys ((r * 2 ^ w : Nat) : Int)) (by
      intro r hr
      obtain ⟨v, hv, hvl, hvg⟩ := maskedLoad_spec pad (2 ^ w) num r keys hkeys
      exact ⟨v, hv, hvg⟩)
    rw [h3, ok_bind]
    exact ⟨hi, buf, rfl, rfl, h4, h5⟩

theorem storeHigh_spec (mf : Bool) (pad : α) (k w n num : Nat) (s : State α) (keys buf : List α) (h1 : 2 ^ k * 2 ^ w < num)
    (h2 : num ≤ 2 ^ (k + 1) * 2 ^ w) (hkeys : num ≤ keys.length) (hbuf : 2 ^ (k + 1) * 2 ^ w + 2 ^ n ≤ buf.length) :
    ∃ ks b, storeHigh mf (2 ^ (k + 1)) (2 ^ w) (2 ^ n) num s keys buf = .ok (ks, b) ∧ b.length = buf.length ∧
      ks.length = keys.length ∧ ∀ p, ks.getD p pad =
        if 2 ^ k * 2 ^ w ≤ p ∧ p < num then s (p / 2 ^ w) (p % 2 ^ w) else keys.getD p pad := by
  have hhalf : 2 ^ (k + 1) / 2 = 2 ^ k := by rw [Nat.pow_succ]; omega
  have hkk : 2 ^ (k + 1) = 2 ^ k + 2 ^ k := by rw [Nat.pow_succ]; omega
  have hnpos := Nat.two_pow_pos n
  have hP := Nat.two_pow_pos w
  unfold storeHigh
  rw [hhalf]
  cases mf with
  | true =>
    simp only [if_true]
    obtain ⟨b, hb, hl, hg⟩ := storeRows_spec pad (2 ^ w) hP s buf (2 ^ k) (2 ^ k) (by rw [← hkk]; omega)
    rw [hb, ok_bind]
    have hn := Nat.two_pow_pos n
    have hfuel : num + 1 ≤ (num + 1) * 2 ^ n := Nat.le_mul_of_pos_right _ hn
    obtain ⟨ks, hks, hkl, hkg⟩ := copyOut_spec pad (2 ^ n) num hn b (by omega) (num + 1) (2 ^ k * 2 ^ w) keys (by omega)
      (by omega) hkeys (by omega)
    rw [hks, ok_bind]
    refine ⟨ks, b, rfl, hl, hkl, fun p => ?_⟩
    rw [hkg p]
    split
    · rw [hg p, if_pos (by rw [← hkk]; omega)]
    · rfl
  | false =>
    simp only [Bool.false_eq_true, if_false]
    obtain ⟨ks, hks, hI⟩ := foldlM_spec (fun (a : List α) r => blendedStore (rowList (2 ^ w) s r) (rowMask (2 ^ w) num r) a (r * 2 ^ w))
      (fun t b => b.length = keys.length ∧ ∀ p, b.getD p pad =
        if 2 ^ k * 2 ^ w ≤ p ∧ p < (2 ^ k + t) * 2 ^ w ∧ p < num then s (p / 2 ^ w) (p % 2 ^ w) else keys.getD p pad)
      (List.range' (2 ^ k) (2 ^ k)) 0 keys ⟨rfl, fun p => by rw [if_neg (by rw [Nat.add_zero]; omega)]⟩ (by
        intro i r b hr ⟨hl, hg⟩
        rw [Nat.zero_add] at hg ⊢
        have hi : i < 2 ^ k := by
          rcases Nat.lt_or_ge i (2 ^ k) with h | h
          · exact h
          · rw [List.getElem?_eq_none (by simpa using h)] at hr; simp at hr
        have hr' : r = 2 ^ k + i := by
          rw [List.getElem?_range' hi] at hr; simp at hr; omega
        subst hr'
        have hm2 : (2 ^ k + i + 1) * 2 ^ w = (2 ^ k + i) * 2 ^ w + 2 ^ w := by rw [Nat.add_mul (2 ^ k + i)]; omega
        have hm3 : 2 ^ k * 2 ^ w ≤ (2 ^ k + i) * 2 ^ w := Nat.mul_le_mul_right _ (by omega)
        obtain ⟨b2, hb2, hl2, hg2⟩ := blendedStore_spec pad (2 ^ w) num (2 ^ k + i) s b (by omega)
        refine ⟨b2, hb2, by rw [hl2, hl], fun p => ?_⟩
        rw [hg2 p, hg p, show 2 ^ k + (i + 1) = 2 ^ k + i + 1 by omega, hm2]
        by_cases h3 : (2 ^ k + i) * 2 ^ w ≤ p ∧ p < (2 ^ k + i) * 2 ^ w + 2 ^ w ∧ p < num
        · rw [if_pos h3, if_pos (by omega)]
          have e : p = (2 ^ k + i) * 2 ^ w + (p - (2 ^ k + i) * 2 ^ w) := by omega
          have e1 : p / 2 ^ w = 2 ^ k + i := by conv => lhs; rw [e]
                                                exact idx_div (by omega)
          have e2 : p % 2 ^ w = p - (2 ^ k + i) * 2 ^ w := by conv => lhs; rw [e]
                                                              exact idx_mod (by omega)
          rw [e1, e2]
        · rw [if_neg h3]
          by_cases h4 : 2 ^ k * 2 ^ w ≤ p ∧ p < (2 ^ k + i) * 2 ^ w ∧ p < num
          · rw [if_pos h4, if_pos (by omega)]
          · rw [if_neg h4, if_neg (by omega)])
    rw [hks, ok_bind]
    refine ⟨ks, buf, rfl, rfl, hI.1, fun p => ?_⟩
    rw [hI.2 p]
    simp only [Nat.zero_add, List.length_range']
    rw [← hkk]
    by_cases h3 : 2 ^ k * 2 ^ w ≤ p ∧ p < num
    · rw [if_pos h3, if_pos (by omega)]
    · rw [if_neg h3, if_neg (by omega)]

/-- The first `num` keys are sorted and permuted, everything else is untouched. -/
def SortsPrefix (lt : α → α → Bool) (keys : List α) (num : Nat) (out : List α) : Prop :=
  out.length = keys.length ∧ Sorted lt (out.take num) ∧ (out.take num).Perm (keys.take num) ∧ out.drop num = keys.drop num

/-- Memory that holds the network's output, the input having been padded. -/
theorem network_out {lt : α → α → Bool} (ho : IsOrder lt) (ha : Antisymm lt) {pad : α} (hp : IsLast lt pad)
    {R w : Nat} {ops : List Op} (hs : Sorts R w ops) (s : State α) (keys out : List α) (num : Nat) (h2 : num ≤ R * 2 ^ w)
    (hkeys : num ≤ keys.length) (hlen : out.length = keys.length)
    (hin : ∀ r, r < R → ∀ c, c < 2 ^ w → s r c = if r * 2 ^ w + c < num then keys.getD (r * 2 ^ w + c) pad else pad)
    (hout : ∀ p, out.getD p pad = if p < num then run (first lt) (last lt) ops s (p / 2 ^ w) (p % 2 ^ w) else keys.getD p pad) :
    SortsPrefix lt keys num out := by
  have hW := Nat.two_pow_pos w
  have hsorted := flatten_sorted ho hs s
  have hperm := run_perm ho ha R w ops s hs.1
  have hflat : flatten R (2 ^ w) s = keys.take num ++ List.replicate (R * 2 ^ w - num) pad := by
    apply ext_getD pad
    · rw [flatten_length, List.length_append, List.length_take, List.length_replicate]; omega
    · intro p hpl
      rw [flatten_length] at hpl
      unfold flatten
      rw [getD_map_range, if_pos hpl, hin (p / 2 ^ w) (Nat.div_lt_of_lt_mul (by rw [Nat.mul_comm]; exact hpl)) _ (Nat.mod_lt _ hW),
        div_mul_mod, getD_append', List.length_take, Nat.min_eq_left hkeys, getD_take', getD_replicate']
      split
      · rfl
      · split <;> rfl
  rw [hflat] at hperm
  have hl : (keys.take num).length = num := by rw [List.length_take]; omega
  have hu := unpad ho ha hp _ _ _ hsorted hperm
  rw [hl] at hu
  have htake : out.take num = (flatten R (2 ^ w) (run (first lt) (last lt) ops s)).take num := by
    apply ext_getD pad
    · rw [List.length_take, List.length_take, flatten_length]; omega
    · intro p hpl
      rw [List.length_take] at hpl
      rw [getD_take', getD_take', if_pos (by omega), if_pos (by omega), hout p, if_pos (by omega)]
      unfold flatten
      rw [getD_map_range, if_pos (by omega)]
  refine ⟨hlen, ?_, ?_, ?_⟩
  · rw [htake]; exact hu.1
  · rw [htake]; exact hu.2
  · apply ext_getD pad
    · rw [List.length_drop, List.length_drop, hlen]
    · intro p hpl
      rw [getD_drop', getD_drop', hout, if_neg (by omega)]

theorem sortRows_spec {lt : α → α → Bool} (ho : IsOrder lt) (ha : Antisymm lt) {pad : α} (hp : IsLast lt pad) (mf : Bool)
    (k w n : Nat) {ops : List Op} (hs : Sorts (2 ^ (k + 1)) w ops) (keys buf : List α) (num : Nat) (h1 : 2 ^ k * 2 ^ w < num)
    (h2 : num ≤ 2 ^ (k + 1) * 2 ^ w) (hkeys : num ≤ keys.length) (hbuf : 2 ^ (k + 1) * 2 ^ w + 2 ^ n ≤ buf.length) (hwn : w ≤ n) :
    ∃ out b, sortRows mf lt pad (2 ^ (k + 1)) (2 ^ w) (2 ^ n) ops keys num buf = .ok (out, b) ∧ b.length = buf.length ∧
      SortsPrefix lt keys num out := by
  have hhalf : 2 ^ (k + 1) / 2 = 2 ^ k := by rw [Nat.pow_succ]; omega
  have hkk : 2 ^ (k + 1) = 2 ^ k + 2 ^ k := by rw [Nat.pow_succ]; omega
  have hnpos := Nat.two_pow_pos n
  have hle : 2 ^ w ≤ 2 ^ n := Nat.pow_le_pow_right (by decide) hwn
  have hP := Nat.two_pow_pos w
  unfold sortRows
  rw [if_neg (by omega), hhalf]
  obtain ⟨lo, hlo, hlol, hloq⟩ := mapM_spec (fun r => Vec.loadU (2 ^ w) keys (r * 2 ^ w))
    (fun r v => ∀ c, c < 2 ^ w → v.getD c pad = keys.getD (r * 2 ^ w + c) pad) (List.range (2 ^ k)) (by
      intro r hr
      rw [List.mem_range] at hr
      have hm : (r + 1) * 2 ^ w ≤ 2 ^ k * 2 ^ w := Nat.mul_le_mul_right _ (by omega)
      rw [Nat.add_mul] at hm
      obtain ⟨v, hv, hvl, hvg⟩ := loadU_spec pad (2 ^ w) keys (r * 2 ^ w) (by omega)
      exact ⟨v, hv, hvg⟩)
  rw [hlo, ok_bind]
  obtain ⟨hi, b1, hhi, hbl, hhil, hhiq⟩ := loadHigh_spec mf pad k w n num keys buf h1 h2 hkeys hbuf hwn
  rw [hhi, ok_bind]
  simp only []
  have hlol' : lo.length = 2 ^ k := by simpa using hlol
  have hin : ∀ r, r < 2 ^ (k + 1) → ∀ c, c < 2 ^ w → rowsState pad (lo ++ hi) r c =
      if r * 2 ^ w + c < num then keys.getD (r * 2 ^ w + c) pad else pad := by
    intro r hr c hc
    unfold rowsState
    rw [getD_append', hlol']
    by_cases h : r < 2 ^ k
    · rw [if_pos h]
      obtain ⟨y, hy, hq⟩ := hloq r r (by simp [h])
      rw [List.getD_eq_getElem?_getD (l := lo), hy]
      have : r * 2 ^ w + c < num := by have := idx_lt h hc; omega
      rw [if_pos this]
      exact hq c hc
    · rw [if_neg h, hhiq (r - 2 ^ k) (by omega) c hc, show 2 ^ k + (r - 2 ^ k) = r by omega]
  generalize rowsState pad (lo ++ hi) = s at *
  have hst := storeRows_spec pad (2 ^ w) hP (run (first lt) (last lt) ops s) keys 0 (2 ^ k) (by rw [Nat.zero_add]; omega)
  rw [← List.range_eq_range'] at hst
  obtain ⟨k1, hk1, hkl1, hkg1⟩ := hst
  rw [hk1, ok_bind]
  obtain ⟨k2, b2, hk2, hbl2, hkl2, hkg2⟩ := storeHigh_spec mf pad k w n num (run (first lt) (last lt) ops s) k1 b1 h1 h2
    (by omega) (by omega)
  refine ⟨k2, b2, hk2, by omega, ?_⟩
  refine network_out ho ha hp hs s keys k2 num h2 hkeys (by omega) hin (fun p => ?_)
  rw [hkg2 p, hkg1 p]
  by_cases h3 : 2 ^ k * 2 ^ w ≤ p ∧ p < num
  · rw [if_pos h3, if_pos (by omega)]
  · rw [if_neg h3]
    rw [Nat.zero_mul, Nat.zero_add]
    by_cases h4 : p < num
    · rw [if_pos h4, if_pos (by omega)]
    · rw [if_neg h4, if_neg (by omega)]

theorem sort2To2_spec {lt : α → α → Bool} (ho : IsOrder lt) (ha : Antisymm lt) {pad : α} (hp : IsLast lt pad)
    (keys : List α) (hkeys : 2 ≤ keys.length) : ∃ out, sort2To2 lt pad keys = .ok out ∧ SortsPrefix lt keys 2 out := by
  unfold sort2To2
  obtain ⟨v0, h0, _, g0⟩ := loadU_spec pad 1 keys 0 (by omega)
  obtain ⟨v1, h1, _, g1⟩ := loadU_spec pad 1 keys 1 (by omega)
  rw [h0, ok_bind, h1, ok_bind]
  obtain ⟨b, hb, hl, hg⟩ := storeRows_spec pad 1 (by decide) (run (first lt) (last lt) Net.sort2 (rowsState pad [v0, v1]))
    keys 0 2 (by omega)
  refine ⟨b, hb, ?_⟩
  refine network_out ho ha hp sorts_sort2 (rowsState pad [v0, v1]) keys b 2 (by decide) hkeys hl ?_ ?_
  · intro r hr c hc
    have hc0 : c = 0 := by simpa using hc
    subst hc0
    unfold rowsState
    match r, hr with
    | 0, _ => simpa using g0 0 (by decide)
    | 1, _ => simpa using g1 0 (by decide)
  · intro p
    rw [hg p]
    by_cases h : p < 2
    · rw [if_pos (by omega), if_pos h]; rfl
    · rw [if_neg (by omega), if_neg h]

theorem sort3To4_spec {lt : α → α → Bool} (ho : IsOrder lt) (ha : Antisymm lt) {pad : α} (hp : IsLast lt pad)
    (keys buf : List α) (num : Nat) (hn : num = 3 ∨ num = 4) (hkeys : num ≤ keys.length) (hbuf : 1 ≤ buf.length) :
    ∃ out b, sort3To4 lt pad keys num buf = .ok (out, b) ∧ b.length = buf.length ∧ SortsPrefix lt keys num out := by
  unfold sort3To4
  obtain ⟨b1, hb1, hbl1, hbg1⟩ := storeU_spec pad [pad] buf 0 (by simpa using hbuf)
  obtain ⟨v0, h0, _, g0⟩ := loadU_spec pad 1 keys 0 (by omega)
  obtain ⟨v1, h1, _, g1⟩ := loadU_spec pad 1 keys 1 (by omega)
  obtain ⟨v2, h2, _, g2⟩ := loadU_spec pad 1 keys 2 (by omega)
  rw [hb1, ok_bind, h0, ok_bind, h1, ok_bind, h2, ok_bind]
  have h3 : ∃ v3, loadInOut3 keys num b1 = .ok v3 ∧
      v3.getD 0 pad = if 3 < num then keys.getD 3 pad else pad := by
    rcases hn with h | h
    · subst h
      obtain ⟨v, hv, _, gv⟩ := loadU_spec pad 1 b1 0 (by omega)
      refine ⟨v, hv, ?_⟩
      rw [gv 0 (by decide), hbg1]
      simp
    · subst h
      obtain ⟨v, hv, _, gv⟩ := loadU_spec pad 1 keys 3 (by omega)
      refine ⟨v, hv, ?_⟩
      rw [gv 0 (by decide)]
      simp
  obtain ⟨v3, h3, g3⟩ := h3
  rw [h3, ok_bind]
  simp only []
  have hin : ∀ r, r < 4 → ∀ c, c < 2 ^ 0 → rowsState pad [v0, v1, v2, v3] r c =
      if r * 2 ^ 0 + c < num then keys.getD (r * 2 ^ 0 + c) pad else pad := by
    intro r hr c hc
    have hc0 : c = 0 := by simpa using hc
    subst hc0
    unfold rowsState
    match r, hr with
    | 0, _ => rw [if_pos (by omega)]; simpa using g0 0 (by decide)
    | 1, _ => rw [if_pos (by omega)]; simpa using g1 0 (by decide)
    | 2, _ => rw [if_pos (by omega)]; simpa using g2 0 (by decide)
    | 3, _ => simpa using g3
  generalize rowsState pad [v0, v1, v2, v3] = s at *
  obtain ⟨k1, hk1, hl1, hg1⟩ := storeRows_spec pad 1 (by decide) (run (first lt) (last lt) Net.sort4 s) keys 0 3 (by omega)
  rw [show ([0, 1, 2] : List Nat) = List.range' 0 3 from rfl, hk1, ok_bind]
  rcases hn with h | h
  · subst h
    rw [if_pos rfl]
    obtain ⟨b2, hb2, hbl2, _⟩ := storeU_spec pad (rowList 1 (run (first lt) (last lt) Net.sort4 s) 3) b1 0 (by
      rw [rowList_length]; omega)
    rw [hb2, ok_bind]
    refine ⟨k1, b2, rfl, by omega, ?_⟩
    refine network_out ho ha hp sorts_sort4 s keys k1 3 (by decide) hkeys hl1 hin (fun p => ?_)
    rw [hg1 p]
    by_cases h : p < 3
    · rw [if_pos (by omega), if_pos h]; rfl
    · rw [if_neg (by omega), if_neg h]
  · subst h
    rw [if_neg (by decide)]
    obtain ⟨k2, hk2, hl2, hg2⟩ := storeU_spec pad (rowList 1 (run (first lt) (last lt) Net.sort4 s) 3) k1 3 (by
      rw [rowList_length]; omega)
    rw [hk2, ok_bind]
    refine ⟨k2, b1, rfl, by omega, ?_⟩
    refine network_out ho ha hp sorts_sort4 s keys k2 4 (by decide) hkeys (by omega) hin (fun p => ?_)
    rw [hg2 p, hg1 p, rowList_length]
    by_cases h : p < 4
    · rw [if_pos h]
      by_cases h3 : p = 3
      · subst h3
        rw [if_pos (by omega), rowList_getD _ _ _ _ _ (by decide)]
        rfl
      · rw [if_neg (by omega), if_pos (by omega)]; rfl
    · rw [if_neg (by omega), if_neg (by omega), if_neg h]

theorem log2_cases {num k : Nat} (h : 2 ^ k < num) (h2 : num ≤ 2 ^ (k + 1)) : Nat.log2 (num - 1) = k := by
  have hk := Nat.two_pow_pos k
  rw [Nat.log2_eq_iff (by omega)]
  omega

theorem baseCaseNum_cases (big : Bool) (lpk : Nat) (hlpk : lpk = 1 ∨ lpk = 2) (n : Nat) :
    (baseCaseNum big lpk (2 ^ n) = 8 ∧ n = 0) ∨ (baseCaseNum big lpk (2 ^ n) = 16 ∧ n = 1) ∨
    (baseCaseNum big lpk (2 ^ n) = 64 ∧ 2 ≤ n) ∨ (baseCaseNum big lpk (2 ^ n) = 128 ∧ 3 ≤ n) ∨
    (baseCaseNum big lpk (2 ^ n) = 256 ∧ 4 ≤ n ∧ big = true) := by
  match n with
  | 0 => rcases hlpk with h | h <;> subst h <;> cases big <;> decide
  | 1 => rcases hlpk with h | h <;> subst h <;> cases big <;> decide
  | 2 => rcases hlpk with h | h <;> subst h <;> cases big <;> decide
  | 3 => rcases hlpk with h | h <;> subst h <;> cases big <;> decide
  | m + 4 =>
    have h16 : 16 ≤ 2 ^ (m + 4) := by
      have := Nat.pow_le_pow_right (n := 2) (by decide) (show 4 ≤ m + 4 by omega); simpa using this
    unfold baseCaseNum maxCols
    generalize 2 ^ (m + 4) = N at *
    rw [if_pos (by omega)]
    rcases hlpk with h | h <;> subst h <;> cases big <;> simp <;> omega

/-- `BaseCase` sorts every array it accepts, for every vector length, in both preprocessor variants, without leaving
`keys[0, num)` and the documented buffer. -/
theorem C20_baseCase {lt : α → α → Bool} (ho : IsOrder lt) (ha : Antisymm lt) {pad : α} (hp : IsLast lt pad)
    (mightFault big : Bool) (lpk : Nat) (hlpk : lpk = 1 ∨ lpk = 2) (n Kmax : Nat) (hK : 2 ^ n ≤ Kmax)
    (keys buf : List α) (num : Nat) (hnum : num ≤ baseCaseNum big lpk (2 ^ n)) (hkeys : num ≤ keys.length)
    (hbuf : baseCaseNum big lpk (2 ^ n) + 2 ^ n ≤ buf.length) :
    ∃ out b, baseCase mightFault big lt pad (2 ^ n) Kmax keys num buf = .ok (out, b) ∧ b.length = buf.length ∧
      SortsPrefix lt keys num out := by
  have h2n := Nat.two_pow_pos n
  unfold baseCase
  by_cases h1 : num ≤ 1
  · rw [if_pos h1]
    refine ⟨keys, buf, rfl, rfl, rfl, ?_, List.Perm.refl _, rfl⟩
    have hl : (keys.take num).length ≤ 1 := by rw [List.length_take]; omega
    unfold Sorted
    match keys.take num, hl with
    | [], _ => exact List.Pairwise.nil
    | [x], _ => exact List.pairwise_singleton _ _
  · rw [if_neg h1]
    have hbc := baseCaseNum_cases big lpk hlpk n
    generalize baseCaseNum big lpk (2 ^ n) = bc at *
    have hle : ∀ j, j ≤ n → 2 ^ j ≤ Kmax := fun j hj => Nat.le_trans (Nat.pow_le_pow_right (by decide) hj) hK
    by_cases c1 : num ≤ 2
    · have e : num = 2 := by omega
      subst e
      obtain ⟨out, h2, h3⟩ := sort2To2_spec ho ha hp keys hkeys
      rw [log2_cases (k := 0) (by decide) (by decide)]
      show ∃ out b, (do let keys ← sort2To2 lt pad keys; pure (keys, buf)) = Except.ok (out, b) ∧ _
      rw [h2, ok_bind]
      exact ⟨out, buf, rfl, rfl, h3⟩
    by_cases c2 : num ≤ 4
    · rw [log2_cases (k := 1) (by omega) (by omega)]
      exact sort3To4_spec ho ha hp keys buf num (by omega) hkeys (by omega)
    by_cases c3 : num ≤ 8
    · rw [log2_cases (k := 2) (by omega) (by omega)]
      exact sortRows_spec ho ha hp mightFault 2 0 n sorts_8x1 keys buf num (by omega) (by omega) hkeys (by omega) (by omega)
    by_cases c4 : num ≤ 16
    · rw [log2_cases (k := 3) (by omega) (by omega)]
      have hj : 1 ≤ n := by omega
      have := hle 1 hj
      show ∃ out b, (if Kmax ≥ 2 then sort8Rows mightFault lt pad (2 ^ n) 2 keys num buf else .error .ub) = Except.ok (out, b) ∧ _
      rw [if_pos (by omega)]
      exact sortRows_spec ho ha hp mightFault 2 1 n sorts_8x2 keys buf num (by omega) (by omega) hkeys (by omega) hj
    have hj : 2 ≤ n := by omega
    by_cases c5 : num ≤ 32
    · rw [log2_cases (k := 4) (by omega) (by omega)]
      have := hle 2 hj
      show ∃ out b, (if Kmax ≥ 4 then sort8Rows mightFault lt pad (2 ^ n) 4 keys num buf else .error .ub) = Except.ok (out, b) ∧ _
      rw [if_pos (by omega)]
      exact sortRows_spec ho ha hp mightFault 2 2 n sorts_8x4 keys buf num (by omega) (by omega) hkeys (by omega) hj
    by_cases c6 : num ≤ 64
    · rw [log2_cases (k := 5) (by omega) (by omega)]
      have := hle 2 hj
      show ∃ out b, (if Kmax ≥ 4 then sort16Rows mightFault lt pad (2 ^ n) 4 keys num buf else .error .ub) = Except.ok (out, b) ∧ _
      rw [if_pos (by omega)]
      exact sortRows_spec ho ha hp mightFault 3 2 n sorts_16x4 keys buf num (by omega) (by omega) hkeys (by omega) hj
    have hj : 3 ≤ n := by omega
    by_cases c7 : num ≤ 128
    · rw [log2_cases (k := 6) (by omega) (by omega)]
      have := hle 3 hj
      show ∃ out b, (if Kmax ≥ 8 then sort16Rows mightFault lt pad (2 ^ n) 8 keys num buf else .error .ub) = Except.ok (out, b) ∧ _
      rw [if_pos (by omega)]
      exact sortRows_spec ho ha hp mightFault 3 3 n sorts_16x8 keys buf num (by omega) (by omega) hkeys (by omega) hj
    · have hj : 4 ≤ n := by omega
      have hbig : big = true := by
        rcases hbc with h | h | h | h | h
        · omega
        · omega
        · omega
        · omega
        · exact h.2.2
      rw [log2_cases (k := 7) (by omega) (by omega)]
      have := hle 4 hj
      show ∃ out b, (if big && decide (Kmax ≥ 16) then sort16Rows mightFault lt pad (2 ^ n) 16 keys num buf else .error .ub) =
        Except.ok (out, b) ∧ _
      rw [if_pos (by rw [hbig]; simp; omega)]
      exact sortRows_spec ho ha hp mightFault 3 4 n sorts_16x16 keys buf num (by omega) (by omega) hkeys (by omega) hj

/-! ### Concrete cases -/

theorem finOrder (n : Nat) : IsOrder (fun a b : Fin n => decide (a.val < b.val)) :=
  ⟨fun a => by simp, fun a b c h1 h2 => by simp at *; omega, fun a b c h => by simp at *; omega⟩

theorem finAntisymm (n : Nat) : Antisymm (fun a b : Fin n => decide (a.val < b.val)) := fun a b h1 h2 => by
  simp at h1 h2; exact Fin.ext (by omega)

example : baseCase true true (fun a b : Fin 100 => decide (a.val < b.val)) 99 4 4 [7, 3, 99, 3, 0, 5, 42] 6
    (List.replicate 12 1) = .ok ([0, 3, 3, 5, 7, 99, 42], [1, 1, 99, 3, 7, 99, 99, 99, 1, 1, 1, 1]) := by rfl

/-- The hypotheses of `C20_baseCase` hold for 150 keys in vectors of 16 keys, for both variants. -/
example (mf : Bool) (keys buf : List (Fin 100)) (h : keys.length = 200) (hb : buf.length = 272) :
    ∃ out b, baseCase mf true (fun a b : Fin 100 => decide (a.val < b.val)) 99 (2 ^ 4) 16 keys 150 buf = .ok (out, b) ∧
      b.length = buf.length ∧ SortsPrefix (fun a b : Fin 100 => decide (a.val < b.val)) keys 150 out :=
  C20_baseCase (finOrder 100) (finAntisymm 100) (pad := 99) (fun x => by
    have := x.isLt
    simp only [decide_eq_false_iff_not]
    show ¬ 99 < x.val
    omega) mf true 1 (Or.inl rfl) 4 16
    (by decide) keys buf 150 (by decide) (by omega) (by rw [hb]; decide)

/-- `Antisymm` cannot be dropped: `First`/`Last` of float keys are `Min`/`Max` (traits-inl.h:300-308), which on x86
return the second operand if neither compares less (`-0` and `+0`), so one of the two keys is lost. -/
theorem C20_signed_zero_loss (lt : α → α → Bool) (a b : α) (hab : lt a b = false) (hba : lt b a = false) (hne : a ≠ b) :
    let minps := fun x y => if lt x y then x else y
    let maxps := fun x y => if lt y x then x else y
    ¬ (flatten 2 1 (run minps maxps Net.sort2 (fun r _ => if r = 0 then a else b))).Perm [a, b] := by
  intro minps maxps h
  have e : flatten 2 1 (run minps maxps Net.sort2 (fun r _ => if r = 0 then a else b)) = [minps a b, maxps a b] := rfl
  have e1 : minps a b = b := by simp [minps, hab]
  have e2 : maxps a b = b := by simp [maxps, hba]
  rw [e, e1, e2] at h
  have := h.mem_iff (a := a)
  simp [hne] at this

end VQ
end Hwy
