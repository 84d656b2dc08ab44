import Verif.NetCheck16
import Verif.SortSpec
import Verif.BaseCase
import Mathlib.Algebra.BigOperators.Group.Finset.Basic
import Mathlib.Data.List.Count

/-! # The networks sort every matrix: 0-1 principle, column groups, permutation -/

namespace Hwy
namespace VQ
namespace Net

variable {α β : Type}

/-! ### Homomorphisms -/

theorem step_hom (h : α → β) (F L : α → α → α) (F' L' : β → β → β) (hF : ∀ a b, h (F a b) = F' (h a) (h b))
    (hL : ∀ a b, h (L a b) = L' (h a) (h b)) (s : State α) (op : Op) :
    (fun r c => h (step F L s op r c)) = step F' L' (fun r c => h (s r c)) op := by
  funext r c
  cases op with
  | sort2 a b =>
    simp only [step, setRow, sort2Vec]
    split
    · exact hL _ _
    · split
      · exact hF _ _
      · rfl
  | reverseKeys k x => simp only [step, setRow, reverseKeys]; split <;> rfl
  | sortPairsDistance k x =>
    simp only [step, setRow, sortPairsDistance, sort2Vec]
    split
    · simp only [oddEven]
      split
      · exact hL _ _
      · exact hF _ _
    · rfl
  | sortPairsReverse k x =>
    simp only [step, setRow, sortPairsReverse, sort2Vec]
    split
    · simp only [oddEven]
      split
      · exact hL _ _
      · exact hF _ _
    · rfl

theorem run_hom (h : α → β) (F L : α → α → α) (F' L' : β → β → β) (hF : ∀ a b, h (F a b) = F' (h a) (h b))
    (hL : ∀ a b, h (L a b) = L' (h a) (h b)) : ∀ (ops : List Op) (s : State α),
    (fun r c => h (run F L ops s r c)) = run F' L' ops (fun r c => h (s r c)) := by
  intro ops
  induction ops with
  | nil => intro s; rfl
  | cons op ops ih =>
    intro s
    show (fun r c => h (run F L ops (step F L s op) r c)) = run F' L' ops (step F' L' _ op)
    rw [ih, step_hom h F L F' L' hF hL]

/-! ### Column groups -/

/-- Group `g` of `K` columns of `s` is `s'`. -/
def Agree (R K g : Nat) (s s' : State α) : Prop := ∀ r, r < R → ∀ c, c < K → s r (g * K + c) = s' r c

theorem group_xor (w g c m : Nat) (hc : c < 2 ^ w) (hm : m < 2 ^ w) :
    (g * 2 ^ w + c) ^^^ m = g * 2 ^ w + (c ^^^ m) := by
  have hx : c ^^^ m < 2 ^ w := Nat.xor_lt_two_pow hc hm
  apply Nat.eq_of_testBit_eq
  intro i
  rw [Nat.mul_comm, Nat.testBit_xor, Nat.testBit_two_pow_mul_add _ hc, Nat.testBit_two_pow_mul_add _ hx, Nat.testBit_xor]
  split
  · rfl
  · rw [Nat.testBit_lt_two_pow (Nat.lt_of_lt_of_le hm (Nat.pow_le_pow_right (by decide) (by omega)))]
    simp

theorem group_testBit (w g c j : Nat) (hc : c < 2 ^ w) (hj : j < w) : (g * 2 ^ w + c).testBit j = c.testBit j := by
  rw [Nat.mul_comm, Nat.testBit_two_pow_mul_add _ hc, if_pos hj]

theorem testBit_lt_log {m j w : Nat} (hm : m < 2 ^ w) (h : m.testBit j = true) : j < w := by
  rcases Nat.lt_or_ge j w with h1 | h1
  · exact h1
  · rw [Nat.testBit_lt_two_pow (Nat.lt_of_lt_of_le hm (Nat.pow_le_pow_right (by decide) h1))] at h
    simp at h

theorem step_agree (F L : α → α → α) (R w g : Nat) (s s' : State α) (op : Op) (hop : opOk R (2 ^ w) op = true)
    (h : Agree R (2 ^ w) g s s') : Agree R (2 ^ w) g (step F L s op) (step F L s' op) := by
  intro r hr c hc
  have hx : ∀ m, m < 2 ^ w → c ^^^ m < 2 ^ w := fun m hm => Nat.xor_lt_two_pow hc hm
  cases op with
  | sort2 a b =>
    simp only [opOk, Bool.and_eq_true, decide_eq_true_eq] at hop
    obtain ⟨⟨ha, hb⟩, -⟩ := hop
    simp only [step, setRow, sort2Vec]
    split
    · simp only []; rw [h a ha c hc, h b hb c hc]
    · split
      · simp only []; rw [h a ha c hc, h b hb c hc]
      · exact h r hr c hc
  | reverseKeys k x =>
    simp only [opOk, Bool.and_eq_true, decide_eq_true_eq] at hop
    simp only [step, setRow, reverseKeys]
    split
    · unfold reverseKeys; rw [group_xor w g c _ hc hop.2]; exact h x hop.1 _ (hx _ hop.2)
    · exact h r hr c hc
  | sortPairsDistance k x =>
    simp only [opOk, Bool.and_eq_true, decide_eq_true_eq] at hop
    obtain ⟨⟨hx1, hk⟩, hbit⟩ := hop
    simp only [step, setRow, sortPairsDistance, sort2Vec, swapAdjacent]
    split
    · simp only [oddEven]
      rw [group_testBit w g c _ hc (testBit_lt_log hk hbit), group_xor w g c _ hc hk, h x hx1 c hc,
        h x hx1 _ (hx _ hk)]
    · exact h r hr c hc
  | sortPairsReverse k x =>
    simp only [opOk, Bool.and_eq_true, decide_eq_true_eq] at hop
    obtain ⟨⟨hx1, hk⟩, hbit⟩ := hop
    simp only [step, setRow, sortPairsReverse, sort2Vec, reverseKeys]
    split
    · simp only [oddEven]
      rw [group_testBit w g c _ hc (testBit_lt_log hk hbit), group_xor w g c _ hc hk, h x hx1 c hc,
        h x hx1 _ (hx _ hk)]
    · exact h r hr c hc

theorem run_agree (F L : α → α → α) (R w g : Nat) : ∀ (ops : List Op) (s s' : State α),
    ops.all (opOk R (2 ^ w)) = true → Agree R (2 ^ w) g s s' → Agree R (2 ^ w) g (run F L ops s) (run F L ops s') := by
  intro ops
  induction ops with
  | nil => intro s s' _ h; exact h
  | cons op ops ih =>
    intro s s' hok h
    simp only [List.all_cons, Bool.and_eq_true] at hok
    exact ih _ _ hok.2 (step_agree F L R w g s s' op hok.1 h)

/-! ### 0-1 matrices -/

theorem mono_threshold (f : Nat → Bool) : ∀ n, (∀ i j, i ≤ j → j < n → f i = true → f j = true) →
    ∃ z, z ≤ n ∧ ∀ i, i < n → f i = decide (z ≤ i) := by
  intro n
  induction n with
  | zero => intro _; exact ⟨0, Nat.le_refl _, fun i h => by omega⟩
  | succ n ih =>
    intro h
    obtain ⟨z, hz, hf⟩ := ih (fun i j hij hj => h i j hij (by omega))
    by_cases hzn : z = n
    · cases hn : f n with
      | true =>
        refine ⟨n, by omega, fun i hi => ?_⟩
        by_cases hin : i = n
        · subst hin; simp [hn]
        · rw [hf i (by omega), hzn]
      | false =>
        refine ⟨n + 1, by omega, fun i hi => ?_⟩
        by_cases hin : i = n
        · subst hin; simp [hn]
        · rw [hf i (by omega), hzn]
          have h1 : ¬ n ≤ i := by omega
          have h2 : ¬ n + 1 ≤ i := by omega
          simp [h1, h2]
    · refine ⟨z, by omega, fun i hi => ?_⟩
      by_cases hin : i = n
      · subst hin
        have := h z i (by omega) (by omega) (by rw [hf z (by omega)]; simp)
        rw [this]; simp; omega
      · exact hf i (by omega)

theorem bits_exist (f : Nat → Bool) : ∀ n, ∃ t, t < 2 ^ n ∧ ∀ i, i < n → t.testBit i = f i := by
  intro n
  induction n with
  | zero => exact ⟨0, by simp, fun i h => by omega⟩
  | succ n ih =>
    obtain ⟨t, ht, hf⟩ := ih
    refine ⟨2 ^ n * (f n).toNat + t, ?_, fun i hi => ?_⟩
    · rw [Nat.pow_succ]
      cases f n <;> simp <;> omega
    · rw [Nat.testBit_two_pow_mul_add _ ht]
      by_cases h : i < n
      · rw [if_pos h]; exact hf i h
      · rw [if_neg h, show i = n by omega]
        cases f n <;> simp

/-- Every group of `K` columns is in row-major order. -/
def GroupsSorted (R K : Nat) (s : State Bool) : Prop := ∀ g, SortedB R K (fun r c => s r (g * K + c))

theorem SortedB.congr {R W : Nat} {s s' : State Bool} (h : ∀ r, r < R → ∀ c, c < W → s r c = s' r c)
    (hs : SortedB R W s') : SortedB R W s := by
  intro r c r' c' hr hc hr' hc' hle ht
  rw [h r' hr' c' hc']
  rw [h r hr c hc] at ht
  exact hs r c r' c' hr hc hr' hc' hle ht

theorem columns_sorted (R : Nat) (ops : List Op) (hc : columnCheck R ops = true) (s : State Bool) :
    GroupsSorted R 1 (run andB orB ops s) := by
  intro g
  obtain ⟨t, ht, hb⟩ := bits_exist (fun r => s r g) R
  have hok : ops.all (opOk R (2 ^ 0)) = true := by
    unfold columnCheck at hc; rw [Bool.and_eq_true] at hc; exact hc.1
  have hag : Agree R (2 ^ 0) g s (fun r _ => t.testBit r) := by
    intro r hr c hc
    have : c = 0 := by simpa using hc
    subst this
    show _ = t.testBit r
    rw [hb r hr]; simp
  have := run_agree andB orB R 0 g ops s _ hok hag
  exact SortedB.congr (fun r hr c hc => this r hr c hc) (columnCheck_sound R ops hc t ht)

theorem div_mul_mod (p H : Nat) : p / H * H + p % H = p := by rw [Nat.mul_comm]; exact Nat.div_add_mod p H

theorem idx_div {H r c : Nat} (hc : c < H) : (r * H + c) / H = r := by
  rw [Nat.add_comm, Nat.add_mul_div_right _ _ (by omega), Nat.div_eq_of_lt hc]; omega

theorem idx_mod {H r c : Nat} (hc : c < H) : (r * H + c) % H = c := by
  rw [Nat.add_comm, Nat.add_mul_mod_self_right, Nat.mod_eq_of_lt hc]

theorem idx_lt {R H r c : Nat} (hr : r < R) (hc : c < H) : r * H + c < R * H := by
  have : (r + 1) * H ≤ R * H := Nat.mul_le_mul_right _ (by omega)
  rw [Nat.add_mul] at this; omega

theorem sorted_threshold (R H : Nat) (s : State Bool) (hs : SortedB R H s) :
    ∃ z, z ≤ R * H ∧ ∀ r, r < R → ∀ c, c < H → s r c = decide (z ≤ r * H + c) := by
  obtain ⟨z, hz, hf⟩ := mono_threshold (fun p => s (p / H) (p % H)) (R * H) (by
    intro i j hij hj hi
    have hH : 0 < H := by
      rcases Nat.eq_zero_or_pos H with h | h
      · subst h; omega
      · exact h
    refine hs (i / H) (i % H) (j / H) (j % H) ?_ (Nat.mod_lt _ hH) ?_ (Nat.mod_lt _ hH) ?_ hi
    · exact Nat.div_lt_of_lt_mul (by rw [Nat.mul_comm]; omega)
    · exact Nat.div_lt_of_lt_mul (by rw [Nat.mul_comm]; omega)
    · rw [div_mul_mod, div_mul_mod]; exact hij)
  refine ⟨z, hz, fun r hr c hc => ?_⟩
  have := hf (r * H + c) (idx_lt hr hc)
  simp only [idx_div hc, idx_mod hc] at this
  exact this

theorem merge_sorted (R h : Nat) (ops : List Op) (hc : mergeCheck R (2 ^ h) ops = true) (s : State Bool)
    (hs : GroupsSorted R (2 ^ h) s) : GroupsSorted R (2 ^ (h + 1)) (run andB orB ops s) := by
  intro g
  have hok : ops.all (opOk R (2 ^ (h + 1))) = true := by
    unfold mergeCheck at hc; rw [Bool.and_eq_true] at hc
    rw [show 2 ^ (h + 1) = 2 * 2 ^ h by rw [Nat.pow_succ]; omega]; exact hc.1
  obtain ⟨z1, hz1, h1⟩ := sorted_threshold R (2 ^ h) _ (hs (2 * g))
  obtain ⟨z2, hz2, h2⟩ := sorted_threshold R (2 ^ h) _ (hs (2 * g + 1))
  have hsz : 2 ^ (h + 1) = 2 ^ h + 2 ^ h := by rw [Nat.pow_succ]; omega
  have hag : Agree R (2 ^ (h + 1)) g s (mergeState (2 ^ h) z1 z2) := by
    intro r hr c hcc
    unfold mergeState
    by_cases hlow : c < 2 ^ h
    · rw [if_pos hlow, ← h1 r hr c hlow, hsz, Nat.mul_comm 2 g, Nat.mul_assoc, Nat.two_mul]
    · rw [if_neg hlow, ← h2 r hr (c - 2 ^ h) (by omega), hsz, Nat.add_mul, Nat.mul_comm 2 g, Nat.mul_assoc, Nat.two_mul]
      congr 1
      omega
  have := run_agree andB orB R (h + 1) g ops s _ hok hag
  refine SortedB.congr (fun r hr c hc => this r hr c hc) ?_
  have hm := mergeCheck_sound R h ops hc z1 z2 hz1 hz2
  rw [show 2 * 2 ^ h = 2 ^ (h + 1) by rw [Nat.pow_succ]; omega] at hm
  exact hm

theorem run_append (F L : α → α → α) (a b : List Op) (s : State α) : run F L (a ++ b) s = run F L b (run F L a s) := by
  unfold run; rw [List.foldl_append]

/-- A network for `R` rows of `2 ^ w` keys that sorts all 0-1 matrices. -/
def Sorts (R w : Nat) (ops : List Op) : Prop :=
  ops.all (opOk R (2 ^ w)) = true ∧ ∀ s, SortedB R (2 ^ w) (run andB orB ops s)

theorem sorts_of_groups {R w : Nat} {ops : List Op} (hok : ops.all (opOk R (2 ^ w)) = true)
    (h : ∀ s, GroupsSorted R (2 ^ w) (run andB orB ops s)) : Sorts R w ops :=
  ⟨hok, fun s => by have := h s 0; simpa using this⟩

theorem sorts_sort2 : Sorts 2 0 sort2 := sorts_of_groups (by decide) (fun s => columns_sorted 2 _ check_sort2 s)
theorem sorts_sort4 : Sorts 4 0 sort4 := sorts_of_groups (by decide) (fun s => columns_sorted 4 _ check_sort4 s)

theorem sorts_8x1 : Sorts 8 0 (rows8 1) := sorts_of_groups (by decide) (fun s => columns_sorted 8 _ check_sort8 s)

theorem sorts_8x2 : Sorts 8 1 (rows8 2) := by
  refine sorts_of_groups (by decide) (fun s => ?_)
  rw [show rows8 2 = sort8 ++ merge8x2 from rfl, run_append]
  exact merge_sorted 8 0 _ check_merge8x2 _ (columns_sorted 8 _ check_sort8 s)

theorem sorts_8x4 : Sorts 8 2 (rows8 4) := by
  refine sorts_of_groups (by decide) (fun s => ?_)
  rw [show rows8 4 = sort8 ++ (merge8x2 ++ merge8x4) from rfl, run_append, run_append]
  exact merge_sorted 8 1 _ check_merge8x4 _ (merge_sorted 8 0 _ check_merge8x2 _ (columns_sorted 8 _ check_sort8 s))

theorem groups_16x4 (s : State Bool) : GroupsSorted 16 (2 ^ 2) (run andB orB merge16x4 (run andB orB merge16x2 (run andB orB sort16 s))) :=
  merge_sorted 16 1 _ check_merge16x4 _ (merge_sorted 16 0 _ check_merge16x2 _ (columns_sorted 16 _ check_sort16 s))

theorem sorts_16x4 : Sorts 16 2 (rows16 4) := by
  refine sorts_of_groups (by decide) (fun s => ?_)
  rw [show rows16 4 = sort16 ++ (merge16x2 ++ merge16x4) from rfl, run_append, run_append]
  exact groups_16x4 s

theorem sorts_16x8 : Sorts 16 3 (rows16 8) := by
  refine sorts_of_groups (by decide +kernel) (fun s => ?_)
  rw [show rows16 8 = sort16 ++ (merge16x2 ++ (merge16x4 ++ merge16x8)) from rfl, run_append, run_append, run_append]
  exact merge_sorted 16 2 _ check_merge16x8 _ (groups_16x4 s)

theorem sorts_16x16 : Sorts 16 4 (rows16 16) := by
  refine sorts_of_groups (by decide +kernel) (fun s => ?_)
  rw [show rows16 16 = sort16 ++ (merge16x2 ++ (merge16x4 ++ (merge16x8 ++ merge16x16))) from rfl,
    run_append, run_append, run_append, run_append]
  exact merge_sorted 16 3 _ check_merge16x16 _ (merge_sorted 16 2 _ check_merge16x8 _ (groups_16x4 s))

/-! ### 0-1 principle -/

theorem ge_first {lt : α → α → Bool} (ho : IsOrder lt) (x a b : α) :
    (!lt (first lt a b) x) = andB (!lt a x) (!lt b x) := by
  unfold first andB
  split
  · rename_i h
    cases h1 : lt a x with
    | true => simp
    | false =>
      have : lt b x = false := by
        cases h2 : lt b x with
        | false => rfl
        | true => rw [ho.trans a b x h h2] at h1; simp at h1
      simp [this]
  · rename_i h
    have h : lt a b = false := by simpa using h
    cases h1 : lt b x with
    | true => simp
    | false => rw [ho.le_trans (a := x) (b := b) (c := a) h1 h]; simp

theorem ge_last {lt : α → α → Bool} (ho : IsOrder lt) (x a b : α) :
    (!lt (last lt a b) x) = orB (!lt a x) (!lt b x) := by
  unfold last orB
  split
  · rename_i h
    cases h1 : lt a x with
    | true => simp
    | false =>
      have : lt b x = false := by
        cases h2 : lt b x with
        | false => rfl
        | true => rw [ho.trans a b x h h2] at h1; simp at h1
      simp [this]
  · rename_i h
    have h : lt a b = false := by simpa using h
    cases h1 : lt b x with
    | true => simp
    | false => rw [ho.le_trans (a := x) (b := b) (c := a) h1 h]; simp

/-- Row-major order of an `R` x `W` matrix. -/
def flatten (R W : Nat) (s : State α) : List α := (List.range (R * W)).map (fun p => s (p / W) (p % W))

theorem flatten_length (R W : Nat) (s : State α) : (flatten R W s).length = R * W := by simp [flatten]

theorem flatten_sorted {lt : α → α → Bool} (ho : IsOrder lt) {R w : Nat} {ops : List Op} (hs : Sorts R w ops) (s : State α) :
    Sorted lt (flatten R (2 ^ w) (run (first lt) (last lt) ops s)) := by
  unfold Sorted flatten
  rw [List.pairwise_map]
  have hW := Nat.two_pow_pos w
  refine List.Pairwise.imp_of_mem ?_ (List.pairwise_lt_range (n := R * 2 ^ w))
  intro p q hp hq hpq
  rw [List.mem_range] at hp hq
  cases hlt : lt (run (first lt) (last lt) ops s (q / 2 ^ w) (q % 2 ^ w)) (run (first lt) (last lt) ops s (p / 2 ^ w) (p % 2 ^ w)) with
  | false => rfl
  | true =>
    generalize hx : run (first lt) (last lt) ops s (p / 2 ^ w) (p % 2 ^ w) = x at hlt
    have hh := run_hom (fun a => !lt a x) (first lt) (last lt) andB orB (ge_first ho x) (ge_last ho x) ops s
    have hb := hs.2 (fun r c => !lt (s r c) x) (p / 2 ^ w) (p % 2 ^ w) (q / 2 ^ w) (q % 2 ^ w)
      (Nat.div_lt_of_lt_mul (by rw [Nat.mul_comm]; omega)) (Nat.mod_lt _ hW)
      (Nat.div_lt_of_lt_mul (by rw [Nat.mul_comm]; omega)) (Nat.mod_lt _ hW)
      (by rw [div_mul_mod, div_mul_mod]; omega)
    rw [← hh] at hb
    simp only [hx, ho.irrefl, Bool.not_false, forall_const] at hb
    simp [hlt] at hb

/-! ### Permutation -/

/-- Keys that compare equal are identical (the sorting network compares all bits of an item). -/
def Antisymm (lt : α → α → Bool) : Prop := ∀ a b, lt a b = false → lt b a = false → a = b

theorem pair_first_last (lt : α → α → Bool) (ho : IsOrder lt) (ha : Antisymm lt) (a b : α) (f : α → Nat) :
    f (first lt a b) + f (last lt b a) = f a + f b := by
  unfold first last
  cases h1 : lt a b with
  | true => simp [ho.asymm h1]
  | false =>
    cases h2 : lt b a with
    | true => simp; omega
    | false => have := ha a b h1 h2; subst this; simp

/-- A statement moves keys within pairs of cells. -/
theorem step_pairs {lt : α → α → Bool} (ho : IsOrder lt) (ha : Antisymm lt) (R w : Nat) (s : State α) (op : Op)
    (hop : opOk R (2 ^ w) op = true) : ∃ τ : Nat → Nat → Nat × Nat, ∀ r, r < R → ∀ c, c < 2 ^ w →
      (τ r c).1 < R ∧ (τ r c).2 < 2 ^ w ∧ τ (τ r c).1 (τ r c).2 = (r, c) ∧
      ∀ f : α → Nat, f (step (first lt) (last lt) s op r c) + f (step (first lt) (last lt) s op (τ r c).1 (τ r c).2)
        = f (s r c) + f (s (τ r c).1 (τ r c).2) := by
  have hxx : ∀ c m : Nat, c ^^^ m ^^^ m = c := fun c m => by rw [Nat.xor_assoc, Nat.xor_self, Nat.xor_zero]
  cases op with
  | sort2 a b =>
    simp only [opOk, Bool.and_eq_true, decide_eq_true_eq] at hop
    obtain ⟨⟨ha1, hb1⟩, hab⟩ := hop
    refine ⟨fun r c => if r = a then (b, c) else if r = b then (a, c) else (r, c), fun r hr c hc => ?_⟩
    have key : ∀ (x y : α) (f : α → Nat), f (first lt x y) + f (last lt x y) = f x + f y := by
      intro x y f; unfold first last; split <;> omega
    by_cases h1 : r = a
    · subst h1
      have hba : ¬ b = r := fun h => hab h.symm
      simp only [if_true, hba, if_false, step, setRow, sort2Vec, hab]
      exact ⟨hb1, hc, trivial, fun f => by rw [key]⟩
    · by_cases h2 : r = b
      · subst h2
        simp only [h1, if_false, if_true, step, setRow, sort2Vec]
        refine ⟨ha1, hc, trivial, fun f => ?_⟩
        have := key (s a c) (s r c) f
        rw [if_neg hab]; omega
      · simp only [h1, h2, if_false, step, setRow]
        exact ⟨hr, hc, trivial, fun f => trivial⟩
  | reverseKeys k x =>
    simp only [opOk, Bool.and_eq_true, decide_eq_true_eq] at hop
    refine ⟨fun r c => if r = x then (r, c ^^^ (k - 1)) else (r, c), fun r hr c hc => ?_⟩
    by_cases h1 : r = x
    · simp only [h1, if_true, step, setRow, reverseKeys, hxx]
      exact ⟨hop.1, Nat.xor_lt_two_pow hc hop.2, trivial, fun f => by omega⟩
    · simp only [h1, if_false, step, setRow]
      exact ⟨hr, hc, trivial, fun f => trivial⟩
  | sortPairsDistance k x =>
    simp only [opOk, Bool.and_eq_true, decide_eq_true_eq] at hop
    obtain ⟨⟨hx1, hk⟩, hbit⟩ := hop
    refine ⟨fun r c => if r = x then (r, c ^^^ k) else (r, c), fun r hr c hc => ?_⟩
    by_cases h1 : r = x
    · simp only [h1, if_true, step, setRow, sortPairsDistance, sort2Vec, swapAdjacent, hxx]
      refine ⟨hx1, Nat.xor_lt_two_pow hc hk, trivial, fun f => ?_⟩
      simp only [oddEven, Nat.testBit_xor, hbit, hxx]
      cases hc2 : c.testBit (Nat.log2 k) with
      | true =>
        have := pair_first_last lt ho ha (s x (c ^^^ k)) (s x c) f
        simp; omega
      | false =>
        have := pair_first_last lt ho ha (s x c) (s x (c ^^^ k)) f
        simp; omega
    · simp only [h1, if_false, step, setRow]
      exact ⟨hr, hc, trivial, fun f => trivial⟩
  | sortPairsReverse k x =>
    simp only [opOk, Bool.and_eq_true, decide_eq_true_eq] at hop
    obtain ⟨⟨hx1, hk⟩, hbit⟩ := hop
    refine ⟨fun r c => if r = x then (r, c ^^^ (k - 1)) else (r, c), fun r hr c hc => ?_⟩
    by_cases h1 : r = x
    · simp only [h1, if_true, step, setRow, sortPairsReverse, sort2Vec, reverseKeys, hxx]
      refine ⟨hx1, Nat.xor_lt_two_pow hc hk, trivial, fun f => ?_⟩
      simp only [oddEven, Nat.testBit_xor, hbit, hxx]
      cases hc2 : c.testBit (Nat.log2 k - 1) with
      | true =>
        have := pair_first_last lt ho ha (s x (c ^^^ (k - 1))) (s x c) f
        simp; omega
      | false =>
        have := pair_first_last lt ho ha (s x c) (s x (c ^^^ (k - 1))) f
        simp; omega
    · simp only [h1, if_false, step, setRow]
      exact ⟨hr, hc, trivial, fun f => trivial⟩

theorem count_range [DecidableEq α] (x : α) (g : Nat → α) (n : Nat) :
    ((List.range n).map g).count x = ∑ p ∈ Finset.range n, (if g p = x then 1 else 0) := by
  induction n with
  | zero => simp
  | succ n ih =>
    rw [List.range_succ, List.map_append, List.count_append, ih, Finset.sum_range_succ]
    simp [List.count_cons]

theorem step_perm {lt : α → α → Bool} (ho : IsOrder lt) (ha : Antisymm lt) (R w : Nat) (s : State α) (op : Op)
    (hop : opOk R (2 ^ w) op = true) :
    (flatten R (2 ^ w) (step (first lt) (last lt) s op)).Perm (flatten R (2 ^ w) s) := by
  classical
  rw [List.perm_iff_count]
  intro x
  unfold flatten
  rw [count_range, count_range]
  obtain ⟨τ, hτ⟩ := step_pairs ho ha R w s op hop
  have hW := Nat.two_pow_pos w
  generalize hW' : 2 ^ w = W at *
  have hd : ∀ p, p < R * W → p / W < R := fun p hp => Nat.div_lt_of_lt_mul (by rw [Nat.mul_comm]; exact hp)
  have hm : ∀ p, p % W < W := fun p => Nat.mod_lt _ hW
  let t : Nat → Nat := fun p => (τ (p / W) (p % W)).1 * W + (τ (p / W) (p % W)).2
  have ht : ∀ p, p < R * W → t p < R * W := fun p hp =>
    idx_lt (hτ _ (hd p hp) _ (hm p)).1 (hτ _ (hd p hp) _ (hm p)).2.1
  have hdt : ∀ p, p < R * W → t p / W = (τ (p / W) (p % W)).1 := fun p hp => idx_div (hτ _ (hd p hp) _ (hm p)).2.1
  have hmt : ∀ p, p < R * W → t p % W = (τ (p / W) (p % W)).2 := fun p hp => idx_mod (hτ _ (hd p hp) _ (hm p)).2.1
  have htt : ∀ p, p < R * W → t (t p) = p := by
    intro p hp
    show (τ (t p / W) (t p % W)).1 * W + (τ (t p / W) (t p % W)).2 = p
    rw [hdt p hp, hmt p hp, (hτ _ (hd p hp) _ (hm p)).2.2.1]
    exact div_mul_mod p W
  have inv : ∀ g : Nat → Nat, ∑ p ∈ Finset.range (R * W), g (t p) = ∑ p ∈ Finset.range (R * W), g p := by
    intro g
    refine Finset.sum_nbij' t t ?_ ?_ ?_ ?_ ?_
    · intro p hp; simp only [Finset.mem_range] at *; exact ht p hp
    · intro p hp; simp only [Finset.mem_range] at *; exact ht p hp
    · intro p hp; simp only [Finset.mem_range] at hp; exact htt p hp
    · intro p hp; simp only [Finset.mem_range] at hp; exact htt p hp
    · intro p hp; rfl
  let o : Nat → Nat := fun p => if step (first lt) (last lt) s op (p / W) (p % W) = x then 1 else 0
  let i : Nat → Nat := fun p => if s (p / W) (p % W) = x then 1 else 0
  have e : ∑ p ∈ Finset.range (R * W), (o p + o (t p)) = ∑ p ∈ Finset.range (R * W), (i p + i (t p)) := by
    refine Finset.sum_congr rfl (fun p hp => ?_)
    simp only [Finset.mem_range] at hp
    have := (hτ _ (hd p hp) _ (hm p)).2.2.2 (fun y => if y = x then 1 else 0)
    simp only [o, i, hdt p hp, hmt p hp]
    exact this
  rw [Finset.sum_add_distrib, Finset.sum_add_distrib, inv o, inv i] at e
  show ∑ p ∈ Finset.range (R * W), o p = ∑ p ∈ Finset.range (R * W), i p
  omega

theorem run_perm {lt : α → α → Bool} (ho : IsOrder lt) (ha : Antisymm lt) (R w : Nat) : ∀ (ops : List Op) (s : State α),
    ops.all (opOk R (2 ^ w)) = true →
    (flatten R (2 ^ w) (run (first lt) (last lt) ops s)).Perm (flatten R (2 ^ w) s) := by
  intro ops
  induction ops with
  | nil => intro s _; exact List.Perm.refl _
  | cons op ops ih =>
    intro s hok
    simp only [List.all_cons, Bool.and_eq_true] at hok
    exact (ih _ hok.2).trans (step_perm ho ha R w s op hok.1)

end Net
end VQ
end Hwy
