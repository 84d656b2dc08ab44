import Verif.PivotProof

/-! # Pivot selection when few keys are distinct: proofs -/

namespace Hwy
namespace VQ

variable {α : Type}

open Net

theorem bind_ok {β γ : Type} {x : M β} {f : β → M γ} {r : γ} (h : (x >>= f) = .ok r) : ∃ a, x = .ok a ∧ f a = .ok r := by
  cases x with
  | error e => cases h
  | ok a => exact ⟨a, rfl, h⟩

theorem tvUndo_buf {N : Nat} {v : α} {i w lane : Nat} {keys buf : List α} {r : TV α} (h : tvUndo N v i w lane keys buf = .ok r) :
    r.buf = buf := by
  unfold tvUndo at h
  obtain ⟨a, _, h⟩ := bind_ok h
  obtain ⟨b, _, h⟩ := bind_ok h
  cases h; rfl

theorem tvrUndo_buf {N : Nat} {v : α} {p c at' : Nat} {keys buf : List α} {r : TV α} (h : tvrUndo N v p c at' keys buf = .ok r) :
    r.buf = buf := by
  unfold tvrUndo at h
  obtain ⟨a, _, h⟩ := bind_ok h
  obtain ⟨b, _, h⟩ := bind_ok h
  cases h; rfl

/-- Whatever is at the start of the buffer after `MaybePartitionTwoValue` was there before, or is one of the keys. -/
theorem twoValue_buf {lt : α → α → Bool} (ho : IsOrder lt) (ha : Antisymm lt) (N : Nat) (hN : 0 < N) {L R : α} (hLR : lt L R = true)
    (keys buf : List α) {r : TV α} (hr : twoValue N lt L R keys buf = .ok r) :
    ∀ x, r.buf[0]? = some x → x ∈ keys ∨ buf[0]? = some x := by
  have hne : L ≠ R := by rintro rfl; rw [ho.irrefl] at hLR; cases hLR
  obtain ⟨f, i, wL, K, h1, h2, h3, h4⟩ := tvLoop_spec ho ha N hN hne keys (keys.length + 1) 0 0 keys (by omega)
    ⟨[], by simp, by simp, by omega, by simp⟩
  unfold twoValue at hr
  rw [h1, ok_bind] at hr
  simp only [] at hr
  cases f with
  | true =>
    simp only [if_true] at hr
    obtain ⟨v, _, hr⟩ := bind_ok hr
    rw [tvUndo_buf hr]
    intro x hx; exact Or.inr hx
  | false =>
    simp only [Bool.false_eq_true, if_false] at hr
    unfold tvLast at hr
    obtain ⟨part, hp, hr⟩ := bind_ok hr
    obtain ⟨buf1, hb1, hr⟩ := bind_ok hr
    obtain ⟨v, _, hr⟩ := bind_ok hr
    have hrb : r.buf = buf1 := by
      simp only [] at hr
      split at hr
      · obtain ⟨a, _, hr⟩ := bind_ok hr
        obtain ⟨b, _, hr⟩ := bind_ok hr
        cases hr; rfl
      · exact tvUndo_buf hr
    rw [hrb]
    obtain ⟨X, hX1, hX2, hX3, _⟩ := h2
    have hpart : part = keys.drop i := by
      unfold Vec.loadU at hp
      split at hp
      · cases hp
        rw [hX1, ← List.append_assoc, List.drop_left' (by simp; omega)]
        rw [List.take_of_length_le]
        simp; omega
      · cases hp
    unfold Vec.storeU at hb1
    split at hb1
    · cases hb1
      intro x hx
      rw [List.take_zero, List.nil_append] at hx
      by_cases he : part.length = 0
      · rw [List.length_eq_zero_iff] at he
        rw [he] at hx; simp at hx
        exact Or.inr hx
      · rw [List.getElem?_append_left (by omega)] at hx
        left
        rw [hpart] at hx
        exact List.mem_of_mem_drop (List.mem_of_getElem? hx)
    · cases hb1

theorem twoValueR_buf {lt : α → α → Bool} (N : Nat) {L R : α} (keys buf : List α) {r : TV α} (hr : twoValueR N lt L R keys buf = .ok r)
    (hd : r.done = false) : r.buf = buf := by
  unfold twoValueR at hr
  split at hr
  · cases hr
  · obtain ⟨⟨f, pos, cR, K⟩, _, hr⟩ := bind_ok hr
    simp only [] at hr
    split at hr
    · obtain ⟨v, _, hr⟩ := bind_ok hr
      exact tvrUndo_buf hr
    · unfold tvrLast at hr
      obtain ⟨v, _, hr⟩ := bind_ok hr
      simp only [] at hr
      split at hr
      · obtain ⟨k, _, hr⟩ := bind_ok hr
        unfold tvrFillL at hr
        obtain ⟨⟨i, k⟩, _, hr⟩ := bind_ok hr
        obtain ⟨b, _, hr⟩ := bind_ok hr
        obtain ⟨v, _, hr⟩ := bind_ok hr
        obtain ⟨k, _, hr⟩ := bind_ok hr
        cases hr; cases hd
      · exact tvrUndo_buf hr

theorem sorted_of_eqk {lt : α → α → Bool} (ho : IsOrder lt) {p : α} {l : List α} (h : ∀ x ∈ l, eqk lt x p = true) : Sorted lt l := by
  refine List.Pairwise.imp_of_mem (R := fun _ _ => True) ?_ (List.pairwise_of_forall (fun _ _ => trivial))
  intro a b ha hb _
  exact (eqk_def.mp (eqk_trans ho (h b hb) (eqk_symm (h a ha)))).1

/-- `PartitionIfTwoKeys`. -/
theorem partitionIfTwoKeys_spec {lt : α → α → Bool} (ho : IsOrder lt) (ha : Antisymm lt) (N : Nat) (hN : 0 < N) (pivot second : α) (keys : List α)
    (idx : Nat) (buf : List α) (hk : N ≤ keys.length) (h64 : keys.length + N ≤ 2 ^ 64) (hb : N ≤ buf.length) (hp : pivot ∈ keys)
    (hbp : buf[0]? = some pivot) (hs : keys[idx]? = some second) (hne : eqk lt second pivot = false)
    (hi : ∀ x ∈ keys.take idx, eqk lt x pivot = true) :
    ∃ r, partitionIfTwoKeys N lt pivot keys idx second buf = .ok r ∧ r.keys.Perm keys ∧ r.buf.length = buf.length ∧
      (r.done = true → Sorted lt r.keys) ∧
      (r.done = false → (∃ t, r.third = some t ∧ t ∈ keys ∧ t ≠ second) ∧ ∃ x, r.buf[0]? = some x ∧ x ∈ keys) := by
  unfold partitionIfTwoKeys
  rw [if_neg (by simp [hne])]
  cases hlt : lt pivot second with
  | false =>
    have hsp : lt second pivot = true := by
      cases h : lt second pivot with
      | true => rfl
      | false => simp [eqk, h, hlt] at hne
    obtain ⟨r, h1, h2, h3, h4⟩ := C25_twoValueR ho ha N hN hsp keys buf hk h64 hb
    refine ⟨r, by simpa using h1, h2, h3, ?_, ?_⟩
    · intro hd; rw [if_pos hd] at h4; exact h4.1
    · intro hd
      rw [if_neg (by simp [hd])] at h4
      obtain ⟨t, t1, t2, t3, _⟩ := h4
      refine ⟨⟨t, t1, t2, t3⟩, pivot, ?_, hp⟩
      rw [twoValueR_buf N keys buf h1 hd]; exact hbp
  | true =>
    simp only [Bool.not_true, Bool.false_eq_true, if_false]
    obtain ⟨r, h1, h2, h3, h4⟩ := C25_twoValue ho ha N hN hlt (keys.drop idx) buf hb
    rw [h1, ok_bind]
    have heq : ∀ x ∈ keys.take idx, x = pivot := fun x hx => (eqk_iff ho ha x pivot).mp (hi x hx)
    refine ⟨_, rfl, ?_, h3, ?_, ?_⟩
    · conv_rhs => rw [← List.take_append_drop idx keys]
      exact List.Perm.append_left _ h2
    · intro hd
      have hd : r.done = true := hd
      rw [if_pos hd] at h4
      obtain ⟨s1, s2⟩ := h4
      show Sorted lt (keys.take idx ++ r.keys)
      unfold Sorted
      rw [List.pairwise_append]
      refine ⟨sorted_of_eqk ho hi, s1, ?_⟩
      intro x hx y hy
      rw [heq x hx]
      rcases s2 y (h2.mem_iff.mp hy) with e | e
      · rw [e]; exact ho.irrefl _
      · rw [e]; exact ho.asymm hlt
    · intro hd
      have hd : r.done = false := hd
      rw [if_neg (by simp [hd])] at h4
      obtain ⟨t, t1, t2, _, t3⟩ := h4
      refine ⟨⟨t, t1, List.mem_of_mem_drop t2, t3⟩, ?_⟩
      have hx0 : 0 < r.buf.length := by rw [h3]; omega
      have hx := List.getElem?_eq_getElem hx0
      refine ⟨r.buf[0], hx, ?_⟩
      rcases twoValue_buf ho ha N hN hlt (keys.drop idx) buf h1 _ hx with h | h
      · exact List.mem_of_mem_drop h
      · rw [hbp] at h; cases h; exact hp

/-- `PartitionIfTwoSamples`. -/
theorem partitionIfTwoSamples_spec {t : Traits α} (hv : t.Valid) (ha : Antisymm t.lt) (N : Nat) (hN : 0 < N) (keys buf : List α) (n : Nat)
    (hn : 0 < n) (hb : n + N ≤ buf.length) {a b : α} (h0 : buf[0]? = some a) (hl : buf[n - 1]? = some b) (hab : t.lt a b = true) :
    ∃ r, partitionIfTwoSamples N t keys buf n = .ok r ∧ r.keys.Perm keys ∧ r.buf.length = buf.length ∧
      (r.done = true → Sorted t.lt r.keys) ∧ r.buf.take n = buf.take n := by
  unfold partitionIfTwoSamples
  rw [readAt_some h0, ok_bind, readAt_some hl, ok_bind, if_neg (by simp [eqk, hab])]
  split
  · exact ⟨_, rfl, List.Perm.refl _, rfl, (fun h => by cases h), rfl⟩
  · obtain ⟨r, h1, h2, h3, h4⟩ := C25_twoValue hv.order ha N hN hab keys (buf.drop n) (by rw [List.length_drop]; omega)
    rw [h1, ok_bind]
    rw [List.length_drop] at h3
    refine ⟨_, rfl, h2, ?_, ?_, ?_⟩
    · show (buf.take n ++ r.buf).length = _
      rw [List.length_append, h3, List.length_take]; omega
    · intro hd
      have hd : r.done = true := hd
      rw [if_pos hd] at h4; exact h4.1
    · show (buf.take n ++ r.buf).take n = _
      rw [List.take_left' (by rw [List.length_take]; omega)]

/-! ### Equal samples -/

/-- What `Recurse` relies on for each kind of pivot. Keys not after the pivot go left. -/
def PivotOK (lt : α → α → Bool) (keys : List α) (res : PivotResult) (p : α) : Prop :=
  (∃ x ∈ keys, lt p x = false) ∧
  (res ≠ .wasLast → ∃ x ∈ keys, lt p x = true) ∧
  (res = .isFirst → ∀ x ∈ keys, ∀ y ∈ keys, lt p x = false → lt p y = false → lt x y = false) ∧
  (res = .wasLast → ∀ x ∈ keys, ∀ y ∈ keys, lt p x = true → lt p y = true → lt x y = false)

/-- The pivot is in the middle. -/
theorem pivotOK_normal {lt : α → α → Bool} (ho : IsOrder lt) {keys : List α} {p : α} (hg : Good lt keys p) (h : ∃ x ∈ keys, lt p x = true) :
    PivotOK lt keys .normal p := by
  obtain ⟨k, hk, hq⟩ := hg
  exact ⟨⟨k, hk, (eqk_def.mp hq).1⟩, fun _ => h, (fun h => by cases h), (fun h => by cases h)⟩

theorem pivotOK_isFirst {lt : α → α → Bool} (ho : IsOrder lt) {keys : List α} {p : α} (hg : Good lt keys p) (h : ∃ x ∈ keys, eqk lt x p = false)
    (hf : ∀ x ∈ keys, lt x p = false) : PivotOK lt keys .isFirst p := by
  obtain ⟨k, hk, hq⟩ := hg
  refine ⟨⟨k, hk, (eqk_def.mp hq).1⟩, fun _ => ?_, ?_, (fun h => by cases h)⟩
  · obtain ⟨x, hx, hxq⟩ := h
    refine ⟨x, hx, lt_of_not_eqk ?_ (hf x hx)⟩
    cases he : eqk lt p x with
    | false => rfl
    | true => rw [eqk_symm he] at hxq; cases hxq
  · intro _ x hx y hy _ h2
    exact ho.le_trans h2 (hf x hx)

theorem pivotOK_wasLast {t : Traits α} (hv : t.Valid) {keys : List α} {p : α} (h : ∃ x ∈ keys, t.lt x p = true)
    (hl : ∀ x ∈ keys, t.lt p x = false) : PivotOK t.lt keys .wasLast (t.prev p) := by
  obtain ⟨u, hu, hup⟩ := h
  refine ⟨⟨u, hu, ?_⟩, (fun h => absurd rfl h), (fun h => by cases h), ?_⟩
  · cases h : t.lt (t.prev p) u with
    | false => rfl
    | true => rw [hv.prev_adj p u u hup h] at hup; cases hup
  · intro _ x hx y hy h1 _
    exact hv.order.le_trans (hl y hy) (hv.prev_adj p u x hup h1)

theorem any_iff {test : α → Bool} {keys : List α} : keys.any test = true ↔ ∃ x ∈ keys, test x = true := by simp

theorem first_test {t : Traits α} (hv : t.Valid) (p a b : α) : t.lt (t.first a b) p = (t.lt a p || t.lt b p) := by
  obtain ⟨h1, h2⟩ := hv.first_le a b
  cases h : t.lt (t.first a b) p with
  | true => rcases hv.first_mem a b with e | e <;> rw [e] at h <;> simp [h]
  | false => rw [hv.order.le_trans h h1, hv.order.le_trans h h2]; rfl

theorem last_test {t : Traits α} (hv : t.Valid) (p a b : α) : t.lt p (t.last a b) = (t.lt p a || t.lt p b) := by
  obtain ⟨h1, h2⟩ := hv.last_ge a b
  cases h : t.lt p (t.last a b) with
  | true => rcases hv.last_mem a b with e | e <;> rw [e] at h <;> simp [h]
  | false => rw [hv.order.le_trans h1 h, hv.order.le_trans h2 h]; rfl

theorem pivotIfBefore_spec {t : Traits α} (hv : t.Valid) (N : Nat) (hN : 0 < N) (keys : List α) (hk : N ≤ keys.length) (p : α) (after : Bool)
    (hg : Good t.lt keys p) (hbef : ∃ x ∈ keys, t.lt x p = true) (haft : after = true → ∃ x ∈ keys, t.lt p x = true) :
    ∃ res q, pivotIfBefore N t keys p after = .ok (res, q) ∧ PivotOK t.lt keys res q ∧ res ≠ .done := by
  unfold pivotIfBefore
  cases after with
  | true =>
    exact ⟨.normal, p, rfl, pivotOK_normal hv.order hg (haft rfl), by decide⟩
  | false =>
    rw [C25_existsAny N hN t.last (fun x => t.lt p x) (last_test hv p) p (hv.order.irrefl p) keys hk]
    cases h : keys.any (fun x => t.lt p x) with
    | true =>
      exact ⟨.normal, p, rfl, pivotOK_normal hv.order hg (any_iff.mp h), by decide⟩
    | false =>
      refine ⟨.wasLast, t.prev p, rfl, pivotOK_wasLast hv hbef ?_, by decide⟩
      intro x hx
      rw [List.any_eq_false] at h
      simpa using h x hx

theorem pivotIfNotBefore_spec {t : Traits α} (hv : t.Valid) (N : Nat) (hN : 0 < N) (keys : List α) (hk : N ≤ keys.length) (p : α)
    (hg : Good t.lt keys p) (haft : ∃ x ∈ keys, t.lt p x = true) :
    ∃ res q, pivotIfNotBefore N t keys p = .ok (res, q) ∧ PivotOK t.lt keys res q ∧ res ≠ .done := by
  unfold pivotIfNotBefore
  rw [C25_existsAny N hN t.first (fun x => t.lt x p) (first_test hv p) p (hv.order.irrefl p) keys hk, ok_bind]
  cases h : keys.any (fun x => t.lt x p) with
  | true =>
    exact ⟨.normal, p, rfl, pivotOK_normal hv.order hg haft, by decide⟩
  | false =>
    obtain ⟨y, hy, hyp⟩ := haft
    refine ⟨.isFirst, p, rfl, pivotOK_isFirst hv.order hg ⟨y, hy, by simp [eqk, hyp]⟩ ?_, by decide⟩
    intro x hx
    rw [List.any_eq_false] at h
    simpa using h x hx

/-- `ChoosePivotForEqualSamples`: `p` is equivalent to a key, and another key is not equivalent to it. -/
theorem choosePivotForEqualSamples_spec {t : Traits α} (hv : t.Valid) (N : Nat) (hN : 0 < N) (keys : List α) (hk : N ≤ keys.length) (p second : α)
    (third : Option α) (hg : Good t.lt keys p) (hs : second ∈ keys)
    (hKV : t.isKV = true → eqk t.lt second p = false)
    (hpl : t.isKV = false → ∃ th, third = some th ∧ th ∈ keys ∧ th ≠ second) :
    ∃ res q, choosePivotForEqualSamples N t keys p second third = .ok (res, q) ∧ PivotOK t.lt keys res q ∧ res ≠ .done := by
  have ho := hv.order
  have hother : ∃ x ∈ keys, eqk t.lt x p = false := by
    cases hkv : t.isKV with
    | true => exact ⟨second, hs, hKV hkv⟩
    | false =>
      obtain ⟨th, _, h2, h3⟩ := hpl hkv
      have ha := hv.antisymm hkv
      by_cases he : eqk t.lt second p = true
      · refine ⟨th, h2, ?_⟩
        cases hq : eqk t.lt th p with
        | false => rfl
        | true => exact absurd (((eqk_iff ho ha _ _).mp hq).trans ((eqk_iff ho ha _ _).mp he).symm) h3
      · exact ⟨second, hs, by simpa using he⟩
  unfold choosePivotForEqualSamples
  split
  · rename_i h
    refine ⟨_, _, rfl, pivotOK_isFirst ho hg hother ?_, by decide⟩
    intro x _
    exact ho.le_trans (eqk_def.mp h).2 (hv.firstLe x)
  · split
    · rename_i h
      have hlast : ∀ x, t.lt p x = false := fun x => by
        have h1 : t.lt t.lastValue x = false := by
          cases h : t.lt t.lastValue x with
          | false => rfl
          | true => rw [← hv.refines _ _ h]; exact hv.lastNet x
        exact ho.le_trans h1 (eqk_def.mp h).1
      obtain ⟨y, hy, hyq⟩ := hother
      exact ⟨_, _, rfl, pivotOK_wasLast hv ⟨y, hy, lt_of_not_eqk hyq (hlast y)⟩ (fun x _ => hlast x), by decide⟩
    · split
      · rename_i hkv
        have h := hKV hkv
        split
        · rename_i h2
          exact pivotIfBefore_spec hv N hN keys hk p false hg ⟨second, hs, h2⟩ (fun h => by cases h)
        · rename_i h2
          refine pivotIfNotBefore_spec hv N hN keys hk p hg ⟨second, hs, ?_⟩
          cases h3 : t.lt p second with
          | true => rfl
          | false => simp [eqk, h3] at h; exact absurd h h2
      · rename_i hkv
        have hkv : t.isKV = false := by simpa using hkv
        obtain ⟨th, e, h2, h3⟩ := hpl hkv
        subst e
        simp only []
        have ha := hv.antisymm hkv
        obtain ⟨f1, f2⟩ := hv.first_le second th
        obtain ⟨l1, l2⟩ := hv.last_ge second th
        have hst : t.lt (t.first second th) (t.last second th) = true := by
          cases h4 : t.lt second th with
          | true => exact lt_le ho (le_lt ho f1 h4) l2
          | false =>
            cases h5 : t.lt th second with
            | true => exact lt_le ho (le_lt ho f2 h5) l1
            | false => exact absurd (ha _ _ h5 h4) h3
        have hm1 : t.first second th ∈ keys := by
          rcases hv.first_mem second th with e | e <;> rw [e] <;> assumption
        have hm2 : t.last second th ∈ keys := by
          rcases hv.last_mem second th with e | e <;> rw [e] <;> assumption
        unfold pivotPlain
        simp only []
        have hco := ho.cotrans _ p _ hst
        rw [if_neg (by rcases hco with h | h <;> simp [h, hst])]
        split
        · rename_i h4
          exact pivotIfBefore_spec hv N hN keys hk p _ hg ⟨_, hm1, h4⟩ (fun h => ⟨_, hm2, h⟩)
        · rename_i h4
          refine pivotIfNotBefore_spec hv N hN keys hk p hg ⟨_, hm2, ?_⟩
          rcases hco with h | h
          · exact absurd h h4
          · exact h

/-! ### The whole selection -/

theorem Good.perm {lt : α → α → Bool} {keys k2 : List α} {x : α} (h : Good lt keys x) (hp : k2.Perm keys) : Good lt k2 x := by
  obtain ⟨k, hk, hq⟩ := h
  exact ⟨k, hp.mem_iff.mpr hk, hq⟩

theorem pivotEqual_spec {e : Env α} (he : e.Valid) {t : Traits α} (hv : t.Valid) (pivot : α) (idx : Nat) (keys buf : List α)
    (hk : e.c.N ≤ keys.length) (h64 : keys.length + e.c.N ≤ 2 ^ 64) (hb : e.c.N ≤ buf.length) (hbp : buf[0]? = some pivot)
    (hg : Good t.lt keys pivot) (hm : FirstMismatch t.lt pivot keys idx) :
    ∃ r, pivotEqual e t pivot idx keys buf = .ok r ∧ r.keys.Perm keys ∧ r.buf.length = buf.length ∧
      (r.result = .done → Sorted t.lt r.keys) ∧ (r.result ≠ .done → PivotOK t.lt r.keys r.result r.pivot) := by
  obtain ⟨⟨second, hs, hne⟩, hi⟩ := hm
  have ho := hv.order
  unfold pivotEqual
  rw [readAt_some hs, ok_bind]
  cases hkv : t.isKV with
  | true =>
    simp only [if_true]
    show ∃ r, (do let tv ← (.ok ⟨false, none, keys, buf⟩ : M (TV α)); _) = Except.ok r ∧ _
    rw [ok_bind]
    simp only [Bool.false_eq_true, if_false]
    rw [readAt_some hbp, ok_bind]
    obtain ⟨res, q, h1, h2, h3⟩ := choosePivotForEqualSamples_spec hv e.c.N he.N_pos keys hk pivot second none hg (List.mem_of_getElem? hs)
      (fun _ => hne) (fun h => by rw [hkv] at h; cases h)
    rw [h1, ok_bind]
    exact ⟨_, rfl, List.Perm.refl _, rfl, fun h => absurd h h3, fun _ => h2⟩
  | false =>
    simp only [Bool.false_eq_true, if_false]
    have ha := hv.antisymm hkv
    have hp : pivot ∈ keys := by
      obtain ⟨k, hk, hq⟩ := hg
      rw [(eqk_iff ho ha _ _).mp hq]; exact hk
    obtain ⟨r, h1, h2, h3, h4, h5⟩ := partitionIfTwoKeys_spec ho ha e.c.N he.N_pos pivot second keys idx buf hk h64 hb hp hbp hs hne hi
    rw [h1, ok_bind]
    cases hd : r.done with
    | true =>
      simp only [if_true]
      exact ⟨_, rfl, h2, h3, fun _ => h4 hd, fun h => absurd rfl h⟩
    | false =>
      simp only [Bool.false_eq_true, if_false]
      obtain ⟨⟨th, t1, t2, t3⟩, x, x1, x2⟩ := h5 hd
      rw [readAt_some x1, ok_bind]
      obtain ⟨res, q, g1, g2, g3⟩ := choosePivotForEqualSamples_spec hv e.c.N he.N_pos r.keys (by rw [h2.length_eq]; exact hk) x second r.third
        ⟨x, h2.mem_iff.mpr x2, eqk_refl ho x⟩ (h2.mem_iff.mpr (List.mem_of_getElem? hs)) (fun h => by rw [hkv] at h; cases h)
        (fun _ => ⟨th, t1, h2.mem_iff.mpr t2, t3⟩)
      rw [g1, ok_bind]
      exact ⟨_, rfl, h2, h3, fun h => absurd h g3, fun _ => g2⟩

theorem pivotDistinct_spec {e : Env α} (he : e.Valid) {t : Traits α} (hv : t.Valid) (keys buf : List α)
    (hb : 2 * e.chunk + e.bcNum + e.c.N ≤ buf.length) (hg : ∀ x ∈ buf.take (2 * e.chunk), Good t.lt keys x) {x0 : α} (h0 : buf[0]? = some x0)
    (hne : (buf.take (2 * e.chunk)).all (fun y => eqk t.lt y x0) = false) :
    ∃ r, pivotDistinct e t keys buf = .ok r ∧ r.keys.Perm keys ∧ r.buf.length = buf.length ∧
      (r.result = .done → Sorted t.lt r.keys) ∧ (r.result ≠ .done → PivotOK t.lt r.keys r.result r.pivot) := by
  have ho := hv.order
  have hcp := he.chunk
  have hNp := he.N_pos
  unfold pivotDistinct
  obtain ⟨s, s1, s2, s3, s4⟩ := sortSamples_spec he hv buf hb
  rw [s1, ok_bind]
  have ha := List.getElem?_eq_getElem (show 0 < s.length by omega)
  have hl := List.getElem?_eq_getElem (show 2 * e.chunk - 1 < s.length by omega)
  rw [readAt_some ha, ok_bind]
  generalize s[0] = a at ha ⊢
  generalize s[2 * e.chunk - 1] = b at hl
  have ha' : (s.take (2 * e.chunk))[0]? = some a := by rw [List.getElem?_take_of_lt (by omega)]; exact ha
  have hl' : (s.take (2 * e.chunk))[2 * e.chunk - 1]? = some b := by rw [List.getElem?_take_of_lt (by omega)]; exact hl
  have hab : t.lt a b = true := by
    cases h : t.lt a b with
    | true => rfl
    | false =>
      exfalso
      have all : ∀ y ∈ s.take (2 * e.chunk), eqk t.lt y a = true := by
        intro y hy
        obtain ⟨j, hj, hy⟩ := List.getElem_of_mem hy
        have hjl := hj
        rw [List.length_take] at hj
        have hy' : (s.take (2 * e.chunk))[j]? = some y := by rw [List.getElem?_eq_getElem hjl, hy]
        have h1 := sorted_le ho s3 (Nat.zero_le j) ha' hy'
        have h2 := sorted_le ho s3 (show j ≤ 2 * e.chunk - 1 by omega) hy' hl'
        exact eqk_def.mpr ⟨h1, ho.le_trans h2 h⟩
      have hx0 : x0 ∈ buf.take (2 * e.chunk) := by
        refine List.mem_of_getElem? (i := 0) ?_
        rw [List.getElem?_take_of_lt (by omega)]; exact h0
      rw [← Bool.not_eq_true, List.all_eq_true] at hne
      apply hne
      intro y hy
      exact eqk_trans ho (all y (s4.mem_iff.mpr hy)) (eqk_symm (all x0 (s4.mem_iff.mpr hx0)))
  have fin : ∀ r : TV α, r.keys.Perm keys → r.buf.length = buf.length → (r.done = true → Sorted t.lt r.keys) →
      r.buf.take (2 * e.chunk) = s.take (2 * e.chunk) →
      ∃ q, (if r.done then pure ⟨.done, a, r.keys, r.buf⟩ else do
          let pivot ← choosePivotByRank t.lt r.buf (2 * e.chunk)
          pure ⟨.normal, pivot, r.keys, r.buf⟩ : M (PR α)) = .ok q ∧ q.keys.Perm keys ∧ q.buf.length = buf.length ∧
        (q.result = .done → Sorted t.lt q.keys) ∧ (q.result ≠ .done → PivotOK t.lt q.keys q.result q.pivot) := by
    intro r r1 r2 r3 r4
    cases hd : r.done with
    | true =>
      simp only [if_true]
      exact ⟨_, rfl, r1, r2, fun _ => r3 hd, fun h => absurd rfl h⟩
    | false =>
      simp only [Bool.false_eq_true, if_false]
      have g : ∀ i x, i < 2 * e.chunk → s[i]? = some x → r.buf[i]? = some x := by
        intro i x hi hx
        rw [← List.getElem?_take_of_lt hi, r4, List.getElem?_take_of_lt hi]; exact hx
      obtain ⟨p, p1, p2, p3⟩ := choosePivotByRank_spec ho r.buf (2 * e.chunk) (by omega) (by omega) (by rw [r4]; exact s3)
        (g 0 a (by omega) ha) (g _ b (by omega) hl) hab
      rw [p1, ok_bind]
      rw [r4] at p2
      have gp := (hg p (s4.mem_iff.mp p2)).perm r1
      obtain ⟨kb, hkb, hqb⟩ := (hg b (s4.mem_iff.mp (List.mem_of_getElem? hl'))).perm r1
      exact ⟨_, rfl, r1, r2, (fun h => by cases h), fun _ => pivotOK_normal ho gp ⟨kb, hkb, lt_le ho p3 (eqk_def.mp hqb).2⟩⟩
  cases hkv : t.isKV with
  | true =>
    simp only [if_true]
    exact fin ⟨false, none, keys, s⟩ (List.Perm.refl _) s2 (fun h => by cases h) rfl
  | false =>
    simp only [Bool.false_eq_true, if_false]
    obtain ⟨r, r1, r2, r3, r4, r5⟩ := partitionIfTwoSamples_spec hv (hv.antisymm hkv) e.c.N hNp keys s (2 * e.chunk) (by omega) (by omega) ha hl hab
    rw [r1, ok_bind]
    exact fin r r2 (by omega) r4 r5

/-- Everything before `Partition`. -/
theorem choosePivot_spec {e : Env α} (he : e.Valid) {t : Traits α} (hv : t.Valid) (addr : Nat) (keys buf : List α) (rng : Rng)
    (hk : e.bcNum < keys.length) (h64 : keys.length + e.c.N ≤ 2 ^ 64) (hb : e.bufNum ≤ buf.length) :
    ∃ r g, choosePivot e t addr keys buf rng = .ok (r, g) ∧ r.keys.Perm keys ∧ r.buf.length = buf.length ∧
      (r.result = .done → Sorted t.lt r.keys) ∧ (r.result ≠ .done → PivotOK t.lt r.keys r.result r.pivot) := by
  have ho := hv.order
  have hs := he.samples
  have hcp := he.chunk
  have hNc := he.N_le
  have hb1 : 2 * e.chunk + e.bcNum + e.c.N ≤ buf.length := by unfold Env.bufNum at hb; omega
  unfold choosePivot
  obtain ⟨b, g, h1, h2, h3⟩ := drawSamples_spec he hv addr keys buf rng (by omega) (by omega)
  rw [h1, ok_bind]
  obtain ⟨x, x1, x2, x3⟩ := unsortedSampleEqual_spec he t b (by omega)
  simp only []
  rw [x3, ok_bind]
  cases hall : (b.take (2 * e.chunk)).all (fun y => eqk t.lt y x) with
  | true =>
    simp only [if_true]
    rw [x2, ok_bind]
    have hgx : Good t.lt keys x := h3 x (List.mem_of_getElem? (i := 0) (by rw [List.getElem?_take_of_lt (by omega)]; exact x1))
    rcases C25_allEqual e.c.N he.N_pos t.isFloat t.lt x keys addr (by omega) with ⟨m, m1, m2⟩ | ⟨m1, m2⟩
    · rw [m1, ok_bind]
      simp only []
      obtain ⟨r, r1, r2, r3, r4, r5⟩ := pivotEqual_spec he hv x m keys b (by omega) h64 (by omega) x1 hgx m2
      rw [r1, ok_bind]
      exact ⟨r, g, rfl, r2, by omega, r4, r5⟩
    · rw [m1, ok_bind]
      exact ⟨_, g, rfl, List.Perm.refl _, h2, fun _ => sorted_of_eqk ho m2, fun h => absurd rfl h⟩
  | false =>
    simp only [Bool.false_eq_true, if_false]
    obtain ⟨r, r1, r2, r3, r4, r5⟩ := pivotDistinct_spec he hv keys b (by omega) h3 x1 hall
    rw [r1, ok_bind]
    exact ⟨r, g, rfl, r2, by omega, r4, r5⟩

end VQ
end Hwy
