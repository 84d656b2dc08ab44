import Verif.AutoTune
import Verif.CostDistProof
import Mathlib.Data.Nat.Bitwise

/-!
# `NextWithSkip` is a cyclic enumeration of the positions that were not skipped (C16)
-/

namespace Hwy.Tune

/-! ## Specification -/

/-- `q` follows `p` in the cyclic ascending order of the set `A`: the smallest element above `p`,
or, if there is none, the smallest element. -/
def CyclicSucc (A : Nat → Prop) (p q : Nat) : Prop :=
  A q ∧ ((p < q ∧ ∀ r, A r → p < r → q ≤ r) ∨ ((∀ r, A r → r ≤ p) ∧ ∀ r, A r → q ≤ r))

/-- Effect of `Skip(p)` on the set of remaining positions: `p` is removed unless it is the only one. -/
def skipSpec (alive : List Nat) (p : Nat) : List Nat := if alive = [p] then alive else alive.erase p

/-- A history of `Skip` calls is legal if each argument has not been skipped yet. -/
def Legal : List Nat → List Nat → Prop
  | _, [] => True
  | alive, p :: h => p ∈ alive ∧ Legal (skipSpec alive p) h

/-- All `Skip` calls of a history, on the code. -/
def skipAll (links : List Nat) : List Nat → M (List Nat)
  | [] => .ok links
  | p :: h => do
    let links ← listSkip links p
    skipAll links h

/-! ## Order facts -/

theorem CyclicSucc.inj {A : Nat → Prop} {a b p : Nat} (ha : A a) (hb : A b) (h1 : CyclicSucc A a p) (h2 : CyclicSucc A b p) : a = b := by
  obtain ⟨hp, h1⟩ := h1
  obtain ⟨_, h2⟩ := h2
  rcases h1 with ⟨h1, g1⟩ | ⟨h1, g1⟩ <;> rcases h2 with ⟨h2, g2⟩ | ⟨h2, g2⟩
  · rcases Nat.lt_trichotomy a b with h | h | h
    · have := g1 b hb h; omega
    · exact h
    · have := g2 a ha h; omega
  · have := g2 a ha; omega
  · have := g1 b hb; omega
  · have := h1 b hb; have := h2 a ha; omega

theorem CyclicSucc.skip {A : Nat → Prop} {a p b : Nat} (hap : a ≠ p) (hpb : p ≠ b)
    (h1 : CyclicSucc A a p) (h2 : CyclicSucc A p b) : CyclicSucc (fun r => A r ∧ r ≠ p) a b := by
  obtain ⟨hp, h1⟩ := h1
  obtain ⟨hb, h2⟩ := h2
  refine ⟨⟨hb, hpb.symm⟩, ?_⟩
  rcases h1 with ⟨h1, g1⟩ | ⟨h1, g1⟩ <;> rcases h2 with ⟨h2, g2⟩ | ⟨h2, g2⟩
  · left
    refine ⟨by omega, fun r hr har => ?_⟩
    have := g1 r hr.1 har
    exact g2 r hr.1 (by have := hr.2; omega)
  · right
    refine ⟨fun r hr => ?_, fun r hr => g2 r hr.1⟩
    by_contra hc
    have := g1 r hr.1 (by omega)
    have := h2 r hr.1
    exact hr.2 (by omega)
  · right
    refine ⟨fun r hr => h1 r hr.1, fun r hr => ?_⟩
    have := g1 r hr.1
    exact g2 r hr.1 (by have := hr.2; omega)
  · right
    exact ⟨fun r hr => h1 r hr.1, fun r hr => g2 r hr.1⟩

theorem CyclicSucc.keep {A : Nat → Prop} {a p b : Nat} (hb : b ≠ p) (h : CyclicSucc A a b) :
    CyclicSucc (fun r => A r ∧ r ≠ p) a b := by
  obtain ⟨h0, h⟩ := h
  refine ⟨⟨h0, hb⟩, ?_⟩
  rcases h with ⟨h, g⟩ | ⟨h, g⟩
  · exact .inl ⟨h, fun r hr => g r hr.1⟩
  · exact .inr ⟨fun r hr => h r hr.1, fun r hr => g r hr.1⟩

theorem CyclicSucc.self {A : Nat → Prop} {p : Nat} (h : CyclicSucc A p p) : ∀ r, A r → r = p := by
  intro r hr
  rcases h.2 with ⟨h1, _⟩ | ⟨h1, h2⟩
  · omega
  · have := h1 r hr; have := h2 r hr; omega

theorem CyclicSucc.congr {A B : Nat → Prop} (hAB : ∀ r, A r ↔ B r) {p q : Nat} (h : CyclicSucc A p q) : CyclicSucc B p q := by
  have : A = B := funext fun r => propext (hAB r)
  rwa [← this]

/-! ## Link words -/

theorem testBit_word (n p j : Nat) (hp : p < 2 ^ 18) :
    (n * 2 ^ 18 + p).testBit j = if j < 18 then p.testBit j else n.testBit (j - 18) := by
  rw [Nat.mul_comm]; exact Nat.testBit_two_pow_mul_add n hp j

theorem testBit_high {x k j : Nat} (h : x < 2 ^ k) (hj : k ≤ j) : x.testBit j = false :=
  Nat.testBit_lt_two_pow (lt_of_lt_of_le h (Nat.pow_le_pow_right (by omega) hj))

theorem word_or (n p : Nat) (hn : n < 2 ^ 14) (hp : p < 2 ^ 18) :
    Link.u32 (Link.u32 n <<< Link.kShift) ||| p = n * 2 ^ 18 + p := by
  have e : Link.u32 (Link.u32 n <<< Link.kShift) = n <<< 18 := by
    unfold Link.u32 Link.kShift Link.kBits
    rw [Nat.mod_eq_of_lt (a := n) (by omega)]
    rw [Nat.shiftLeft_eq]; omega
  rw [e, ← Nat.shiftLeft_add_eq_or_of_lt hp, Nat.shiftLeft_eq]

theorem word_next (n p : Nat) (hp : p < 2 ^ 18) : Link.next (n * 2 ^ 18 + p) = n := by
  unfold Link.next Link.kShift Link.kBits
  rw [Nat.shiftRight_eq_div_pow]; omega

theorem word_prev (n p : Nat) (hp : p < 2 ^ 14) : Link.prev (n * 2 ^ 18 + p) = p := by
  unfold Link.prev Link.kMaxNum Link.kBits
  rw [Nat.shiftLeft_eq, Nat.one_mul, Nat.and_two_pow_sub_one_eq_mod]; omega

theorem and_pow_ne {x i : Nat} : x &&& (1 <<< i) ≠ 0 ↔ x.testBit i = true := by
  rw [Nat.shiftLeft_eq, Nat.one_mul, Nat.and_two_pow]
  cases h : x.testBit i <;> simp

theorem isRemoved_iff (b : Nat) : Link.isRemoved b = b.testBit 14 := by
  unfold Link.isRemoved Link.kMaxNum Link.kBits
  rw [decide_eq_iff_eq_true_iff]
  · exact and_pow_ne
where
  decide_eq_iff_eq_true_iff {p : Prop} [Decidable p] {b : Bool} : (decide p = b) ↔ (p ↔ b = true) := by
    cases b <;> simp

theorem word_alive (n p : Nat) (hp : p < 2 ^ 14) : Link.isRemoved (n * 2 ^ 18 + p) = false := by
  rw [isRemoved_iff, testBit_word n p 14 (by omega), if_pos (by omega)]
  exact testBit_high hp (by omega)

theorem remove_removed (b : Nat) : Link.isRemoved (Link.remove b) = true := by
  rw [isRemoved_iff]
  unfold Link.remove Link.kMaxNum Link.kBits
  rw [Nat.testBit_or, show Nat.testBit (1 <<< 14) 14 = true from by decide, Bool.or_true]

theorem setNext_word (n p n' : Nat) (hp : p < 2 ^ 14) (hn' : n' < 2 ^ 14) :
    Link.setNext (n * 2 ^ 18 + p) n' = .ok (n' * 2 ^ 18 + p) := by
  unfold Link.setNext
  rw [if_neg (by unfold Link.kMaxNum Link.kBits; rw [Nat.shiftLeft_eq]; omega)]
  have e : (n * 2 ^ 18 + p) &&& ((2 ^ 32 - 1) >>> Link.kBits) = p := by
    have : (2 ^ 32 - 1) >>> Link.kBits = 2 ^ 18 - 1 := by decide
    rw [this, Nat.and_two_pow_sub_one_eq_mod]; omega
  simp only [e]
  rw [Nat.or_comm, word_or n' p hn' (by omega), if_pos ⟨word_next _ _ (by omega), word_alive _ _ hp⟩]

theorem setPrev_word (n p p' : Nat) (hn : n < 2 ^ 14) (hp : p < 2 ^ 14) (hp' : p' < 2 ^ 14) :
    Link.setPrev (n * 2 ^ 18 + p) p' = .ok (n * 2 ^ 18 + p') := by
  unfold Link.setPrev
  rw [if_neg (by unfold Link.kMaxNum Link.kBits; rw [Nat.shiftLeft_eq]; omega)]
  have e : (n * 2 ^ 18 + p) &&& (2 ^ 32 - 1 - (Link.kMaxNum - 1)) = n * 2 ^ 18 := by
    have hm : 2 ^ 32 - 1 - (Link.kMaxNum - 1) = 2 ^ 14 * (2 ^ 18 - 1) + 0 := by
      unfold Link.kMaxNum Link.kBits; rw [Nat.shiftLeft_eq]; norm_num
    rw [hm]
    apply Nat.eq_of_testBit_eq
    intro j
    rw [Nat.testBit_and, testBit_word n p j (by omega), Nat.testBit_two_pow_mul_add _ (Nat.two_pow_pos 14)]
    have h0 := testBit_word n 0 j (Nat.two_pow_pos 18)
    rw [Nat.add_zero] at h0
    rw [h0]
    rw [Nat.testBit_two_pow_sub_one]
    by_cases h1 : j < 14
    · simp [h1, show j < 18 by omega]
    · by_cases h2 : j < 18
      · simp [h2, testBit_high hp (show 14 ≤ j by omega)]
      · by_cases h3 : j < 32
        · simp [h1, h2, show j - 14 < 18 by omega]
        · simp [h1, h2, show ¬ j - 14 < 18 by omega, testBit_high hn (show 14 ≤ j - 18 by omega)]
  simp only [e]
  have e2 : n * 2 ^ 18 ||| Link.u32 p' = n * 2 ^ 18 + p' := by
    have : Link.u32 p' = p' := Nat.mod_eq_of_lt (by omega)
    rw [this, ← Nat.shiftLeft_eq, ← Nat.shiftLeft_add_eq_or_of_lt (by omega)]
  rw [e2, if_pos ⟨word_prev _ _ hp', word_alive _ _ hp'⟩]

theorem make_word (pos num : Nat) (hnum : num < 2 ^ 14) (hpos : pos < num) :
    Link.make pos num = .ok ((if pos = num - 1 then 0 else pos + 1) * 2 ^ 18 + (if pos = 0 then num - 1 else pos - 1)) := by
  unfold Link.make
  rw [if_neg (by unfold Link.kMaxNum Link.kBits; rw [Nat.shiftLeft_eq]; omega)]
  have hp : (if pos = 0 then num - 1 else pos - 1) < 2 ^ 14 := by split <;> omega
  have hn : (if pos = num - 1 then 0 else pos + 1) < 2 ^ 14 := by split <;> omega
  generalize (if pos = 0 then num - 1 else pos - 1) = p at *
  generalize (if pos = num - 1 then 0 else pos + 1) = n at *
  simp only []
  have : Link.u32 p = p := Nat.mod_eq_of_lt (by omega)
  rw [this, word_or n p hn (by omega), if_pos ⟨word_next _ _ (by omega), word_prev _ _ hp, word_alive _ _ hp⟩]

/-! ## The ring invariant -/

/-- `links` is the doubly linked ring of the positions `A` among `[0, n)`. -/
structure Ring (n : Nat) (links : List Nat) (A : Nat → Prop) : Prop where
  len : links.length = n
  small : n < 2 ^ 14
  sub : ∀ r, A r → r < n
  ne : ∃ r, A r
  alive : ∀ r, A r → ∃ a b, links[r]? = some (b * 2 ^ 18 + a) ∧ CyclicSucc A r b ∧ A a ∧ CyclicSucc A a r
  dead : ∀ r, r < n → ¬ A r → ∃ w, links[r]? = some w ∧ Link.isRemoved w = true

theorem mapM_ok {α β : Type} (f : α → M β) (g : α → β) : ∀ l : List α, (∀ x ∈ l, f x = .ok (g x)) → l.mapM f = .ok (l.map g) := by
  intro l
  induction l with
  | nil => intro _; rfl
  | cons a l ih =>
    intro h
    rw [List.mapM_cons, h a List.mem_cons_self]
    rw [ih fun x hx => h x (List.mem_cons_of_mem _ hx)]
    rfl

theorem makeLinks_ring (n : Nat) (h0 : 0 < n) (hn : n < 2 ^ 14) :
    ∃ links, makeLinks n = .ok links ∧ Ring n links (fun r => r < n) := by
  refine ⟨_, mapM_ok _ _ _ (fun x hx => make_word x n hn (List.mem_range.mp hx)), ?_⟩
  refine ⟨by simp, hn, fun r h => h, ⟨0, h0⟩, ?_, fun r h h' => absurd h h'⟩
  intro r hr
  refine ⟨if r = 0 then n - 1 else r - 1, if r = n - 1 then 0 else r + 1, ?_, ?_, ?_, ?_⟩
  · rw [List.getElem?_map, List.getElem?_range hr]; rfl
  · unfold CyclicSucc; split
    · exact ⟨h0, .inr ⟨fun r' h => by omega, fun r' h => by omega⟩⟩
    · exact ⟨by omega, .inl ⟨by omega, fun r' h => by omega⟩⟩
  · split <;> omega
  · unfold CyclicSucc; split
    · exact ⟨hr, .inr ⟨fun r' h => by omega, fun r' h => by omega⟩⟩
    · exact ⟨by omega, .inl ⟨by omega, fun r' h => by omega⟩⟩

theorem Ring.congr {n : Nat} {links : List Nat} {A B : Nat → Prop} (hAB : ∀ r, A r ↔ B r) (h : Ring n links A) : Ring n links B := by
  have : A = B := funext fun r => propext (hAB r)
  rwa [← this]

theorem readAt_some {α : Type} {l : List α} {i : Nat} {x : α} (h : l[i]? = some x) : readAt l i = .ok x := by
  simp [readAt, h]

theorem Ring.next {n : Nat} {links : List Nat} {A : Nat → Prop} (h : Ring n links A) {p : Nat} (hp : A p) :
    ∃ q, listNext links p = .ok q ∧ CyclicSucc A p q := by
  obtain ⟨a, b, hw, h1, h2, h3⟩ := h.alive p hp
  have ha := h.sub a h2
  have hs := h.small
  refine ⟨b, ?_, h1⟩
  unfold listNext
  rw [readAt_some hw]
  show (if _ then _ else _) = _
  rw [word_alive _ _ (by omega), if_neg (by simp), word_next _ _ (by omega)]

theorem Ring.next_dead {n : Nat} {links : List Nat} {A : Nat → Prop} (h : Ring n links A) {p : Nat} (hp : ¬ A p) :
    listNext links p = .error .ub := by
  unfold listNext
  rcases Nat.lt_or_ge p n with hlt | hge
  · obtain ⟨w, hw, hr⟩ := h.dead p hlt hp
    rw [readAt_some hw]
    show (if _ then _ else _) = _
    rw [hr]; rfl
  · rw [readAt_of_ge (by rw [h.len]; exact hge)]; rfl

theorem Ring.skip {n : Nat} {links : List Nat} {A : Nat → Prop} (h : Ring n links A) {p : Nat} (hp : A p) :
    ∃ links', listSkip links p = .ok links' ∧ Ring n links' (fun r => A r ∧ (r ≠ p ∨ ∀ q, A q → q = p)) := by
  obtain ⟨a, b, hw, hpb, hAa, hap⟩ := h.alive p hp
  have hAb : A b := hpb.1
  have hsm := h.small
  have hln := h.len
  have han := h.sub a hAa
  have hbn := h.sub b hAb
  have hpn := h.sub p hp
  unfold listSkip
  rw [readAt_some hw]
  rw [CostDist.ok_bind']
  rw [word_alive _ _ (by omega), if_neg (by simp), word_next _ _ (by omega), word_prev _ _ (by omega)]
  simp only []
  by_cases hlast : a = p ∨ b = p
  · rw [if_pos hlast]
    have hall : ∀ q, A q → q = p := by
      rcases hlast with rfl | rfl
      · exact hap.self
      · exact hpb.self
    exact ⟨links, rfl, h.congr fun r => ⟨fun hr => ⟨hr, .inr hall⟩, fun hr => hr.1⟩⟩
  · rw [if_neg hlast]
    push Not at hlast
    obtain ⟨hap', hbp'⟩ := hlast
    have hnall : ¬ ∀ q, A q → q = p := fun hc => hap' (hc a hAa)
    -- successor word
    obtain ⟨ba, bb, hwb, hb1, hb2, hb3⟩ := h.alive b hAb
    have hbba := h.sub ba hb2
    have hbbb := h.sub bb hb1.1
    have hbap : ba = p := CyclicSucc.inj hb2 hp hb3 hpb
    subst hbap
    rw [readAt_some hwb]
    rw [show ∀ (f : Nat → M (List Nat)), ((Except.ok (bb * 2 ^ 18 + ba) : M Nat) >>= f) = f (bb * 2 ^ 18 + ba) from fun _ => rfl]
    rw [setPrev_word _ _ _ (by omega) (by omega) (by omega), CostDist.ok_bind', writeAt_of_lt _ (by omega), CostDist.ok_bind']
    -- predecessor word, after the first update
    have hwa : ∃ aa, A aa ∧ CyclicSucc A aa a ∧ (links.set b (bb * 2 ^ 18 + a))[a]? = some (ba * 2 ^ 18 + (if a = b then a else aa)) := by
      obtain ⟨aa, ab, h1, h2, h3, h4⟩ := h.alive a hAa
      have habp : CyclicSucc A a ab := h2
      have : ab = ba := by
        -- uniqueness of the successor
        have := h2.2; have := hap.2
        rcases h2 with ⟨hx, ⟨x1, x2⟩ | ⟨x1, x2⟩⟩ <;> rcases hap with ⟨hy, ⟨y1, y2⟩ | ⟨y1, y2⟩⟩
        · have := x2 ba hy y1; have := y2 ab hx x1; omega
        · have := y1 ab hx; omega
        · have := x1 ba hy; omega
        · have := x2 ba hy; have := y2 ab hx; omega
      subst this
      refine ⟨aa, h3, h4, ?_⟩
      by_cases hab : a = b
      · subst hab
        have hbb : bb = ab := by
          rcases hb1 with ⟨hx, ⟨x1, x2⟩ | ⟨x1, x2⟩⟩ <;> rcases h2 with ⟨hy, ⟨y1, y2⟩ | ⟨y1, y2⟩⟩
          · have := x2 ab hy y1; have := y2 bb hx x1; omega
          · have := y1 bb hx; omega
          · have := x1 ab hy; omega
          · have := x2 ab hy; have := y2 bb hx; omega
        subst hbb
        simp [List.getElem?_set, hln, han]
      · rw [List.getElem?_set_ne (by omega), h1, if_neg hab]
    obtain ⟨aa, haa1, haa2, haa3⟩ := hwa
    have haan := h.sub aa haa1
    rw [readAt_some haa3, CostDist.ok_bind', setNext_word _ _ _ (by split <;> omega) (by omega), CostDist.ok_bind',
      writeAt_of_lt _ (by simp; omega), CostDist.ok_bind']
    rw [readAt_some (x := b * 2 ^ 18 + a) (by
      rw [List.getElem?_set_ne (by omega), List.getElem?_set_ne (by omega), hw]), CostDist.ok_bind',
      writeAt_of_lt _ (by simp; omega)]
    refine ⟨_, rfl, ⟨by simp [hln], hsm, fun r hr => h.sub r hr.1, ⟨a, hAa, .inl hap'⟩, ?_, ?_⟩⟩
    · intro r hr
      have hrp : r ≠ ba := by rcases hr.2 with h' | h'; exact h'; exact absurd h' hnall
      have hcongr : ∀ s, (A s ∧ s ≠ ba) ↔ (A s ∧ (s ≠ ba ∨ ∀ q, A q → q = ba)) := fun s =>
        ⟨fun ⟨x, y⟩ => ⟨x, .inl y⟩, fun ⟨x, y⟩ => ⟨x, y.elim id fun h' => absurd h' hnall⟩⟩
      have hrn := h.sub r hr.1
      by_cases hra : r = a
      · subst hra
        refine ⟨if r = b then r else aa, b, ?_, (CyclicSucc.skip hap' hbp'.symm hap hpb).congr hcongr, ?_, ?_⟩
        · rw [List.getElem?_set_ne (by omega), List.getElem?_set_self (by simp; omega)]
        · by_cases hrb : r = b
          · rw [if_pos hrb]; exact ⟨hAa, .inl hrp⟩
          · rw [if_neg hrb]
            refine ⟨haa1, .inl ?_⟩
            rintro rfl
            -- aa = p, so p's successor is r = a; but p's successor is b
            have : r = b := by
              rcases haa2 with ⟨hx, ⟨x1, x2⟩ | ⟨x1, x2⟩⟩ <;> rcases hpb with ⟨hy, ⟨y1, y2⟩ | ⟨y1, y2⟩⟩
              · have := x2 b hy y1; have := y2 r hx x1; omega
              · have := y1 r hx; omega
              · have := x1 b hy; omega
              · have := x2 b hy; have := y2 r hx; omega
            exact hrb this
        · by_cases hrb : r = b
          · rw [if_pos hrb]
            have := (CyclicSucc.skip hap' hbp'.symm hap hpb).congr hcongr
            rwa [← hrb] at this
          · rw [if_neg hrb]; exact (haa2.keep hrp).congr hcongr
      · by_cases hrb : r = b
        · subst hrb
          refine ⟨a, bb, ?_, ?_, ⟨hAa, .inl hap'⟩, (CyclicSucc.skip hap' hbp'.symm hap hpb).congr hcongr⟩
          · rw [List.getElem?_set_ne (by omega), List.getElem?_set_ne (by omega), List.getElem?_set_self (by omega)]
          · apply CyclicSucc.congr hcongr
            apply hb1.keep
            rintro rfl
            exact hra (CyclicSucc.inj hr.1 hAa hb1 hap)
        · obtain ⟨ra, rb, h1, h2, h3, h4⟩ := h.alive r hr.1
          refine ⟨ra, rb, ?_, ?_, ⟨h3, .inl ?_⟩, (h4.keep hrp).congr hcongr⟩
          · rw [List.getElem?_set_ne (by omega), List.getElem?_set_ne (by omega), List.getElem?_set_ne (by omega), h1]
          · apply CyclicSucc.congr hcongr
            apply h2.keep
            rintro rfl
            exact hra (CyclicSucc.inj hr.1 hAa h2 hap)
          · rintro rfl
            have : r = b := by
              rcases h4 with ⟨hx, ⟨x1, x2⟩ | ⟨x1, x2⟩⟩ <;> rcases hpb with ⟨hy, ⟨y1, y2⟩ | ⟨y1, y2⟩⟩
              · have := x2 b hy y1; have := y2 r hx x1; omega
              · have := y1 r hx; omega
              · have := x1 b hy; omega
              · have := x2 b hy; have := y2 r hx; omega
            exact hrb this
    · intro r hr hnA
      by_cases hrp : r = ba
      · subst hrp
        exact ⟨_, List.getElem?_set_self (by simp; omega), remove_removed _⟩
      · have hnr : ¬ A r := fun hc => hnA ⟨hc, .inl hrp⟩
        obtain ⟨w, h1, h2⟩ := h.dead r hr hnr
        refine ⟨w, ?_, h2⟩
        rw [List.getElem?_set_ne (by omega), List.getElem?_set_ne (by rintro rfl; exact hnr hAa),
          List.getElem?_set_ne (by rintro rfl; exact hnr hAb), h1]

/-! ## Main theorem about `NextWithSkip` -/

theorem skipSpec_mem (alive : List Nat) (hnd : alive.Nodup) (p : Nat) (hp : p ∈ alive) (r : Nat) :
    r ∈ skipSpec alive p ↔ (r ∈ alive ∧ (r ≠ p ∨ ∀ q ∈ alive, q = p)) := by
  unfold skipSpec
  split
  · rename_i h; subst h; simp
  · rename_i h
    have hn : ¬ ∀ q ∈ alive, q = p := by
      intro hc
      apply h
      match alive, hp with
      | [x], _ => simp at hc; rw [hc]
      | x :: y :: l, _ =>
        have h1 := hc x (by simp)
        have h2 := hc y (by simp)
        rw [h1, h2] at hnd; simp at hnd
    rw [hnd.mem_erase_iff]
    constructor
    · exact fun ⟨a, b⟩ => ⟨b, .inl a⟩
    · exact fun ⟨a, b⟩ => ⟨b.elim id fun h' => absurd h' hn, a⟩

theorem skipSpec_nodup (alive : List Nat) (hnd : alive.Nodup) (p : Nat) : (skipSpec alive p).Nodup := by
  unfold skipSpec; split
  · exact hnd
  · exact hnd.erase p

theorem skipAll_ring {n : Nat} : ∀ (h alive links : List Nat), alive.Nodup → Ring n links (· ∈ alive) → Legal alive h →
    ∃ links', skipAll links h = .ok links' ∧ Ring n links' (· ∈ h.foldl skipSpec alive) := by
  intro h
  induction h with
  | nil => intro alive links _ hr _; exact ⟨links, rfl, hr⟩
  | cons p h ih =>
    intro alive links hnd hr hl
    obtain ⟨l1, h1, h2⟩ := hr.skip hl.1
    have h3 : Ring n l1 (· ∈ skipSpec alive p) :=
      h2.congr fun r => (skipSpec_mem alive hnd p hl.1 r).symm
    obtain ⟨l2, h4, h5⟩ := ih _ _ (skipSpec_nodup alive hnd p) h3 hl.2
    refine ⟨l2, ?_, h5⟩
    simp only [skipAll]
    rw [h1]; exact h4

/-- **C16** (ring).  For every number of positions `n` in `[1, 2^14)` and every legal history of
`Skip` calls, no assertion fires, some position remains, `Next` of a remaining position is the next
remaining position in ascending order with wrap-around, and `Next` of a skipped (or out-of-range)
position is rejected. -/
theorem C16_ring (n : Nat) (h0 : 0 < n) (hn : n < 2 ^ 14) (h : List Nat) (hl : Legal (List.range n) h) :
    ∃ links, (makeLinks n >>= fun l => skipAll l h) = .ok links ∧ h.foldl skipSpec (List.range n) ≠ [] ∧
      (∀ p ∈ h.foldl skipSpec (List.range n), ∃ q, listNext links p = .ok q ∧
        CyclicSucc (· ∈ h.foldl skipSpec (List.range n)) p q) ∧
      ∀ p, p ∉ h.foldl skipSpec (List.range n) → listNext links p = .error .ub := by
  obtain ⟨l0, e0, r0⟩ := makeLinks_ring n h0 hn
  obtain ⟨l1, e1, r1⟩ := skipAll_ring h (List.range n) l0 List.nodup_range
    (r0.congr fun r => List.mem_range.symm) hl
  refine ⟨l1, by rw [e0]; exact e1, ?_, fun p hp => r1.next hp, fun p hp => r1.next_dead hp⟩
  obtain ⟨r, hr⟩ := r1.ne
  exact List.ne_nil_of_mem hr

/-- A ring of five with a legal history that skips down to the last position and then tries to skip
it. -/
example : Legal (List.range 5) [0, 4, 2, 3, 1, 1] ∧ [0, 4, 2, 3, 1, 1].foldl skipSpec (List.range 5) = [1] := by
  refine ⟨?_, by decide⟩
  simp only [Legal]; decide
example : ((makeLinks 5 >>= fun l => skipAll l [0, 4, 2]).bind fun l => listNext l 3) = .ok 1 := by rfl

/-- Without the size bound the packed link words cannot hold the positions. -/
theorem C16_ring_too_many (pos n : Nat) (hn : 2 ^ 14 ≤ n) : Link.make pos n = .error .ub := by
  unfold Link.make
  rw [if_pos (by unfold Link.kMaxNum Link.kBits; rw [Nat.shiftLeft_eq]; omega)]

end Hwy.Tune
