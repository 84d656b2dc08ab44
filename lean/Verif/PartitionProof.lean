import Verif.Partition
import Verif.SortArr
import Verif.SortSpec
import Mathlib.Tactic.Ring
import Mathlib.Tactic.Linarith
import Mathlib.Data.List.Count

/-! # `Partition`: proofs -/

namespace Hwy
namespace VQ

variable {α : Type}

/-- Keys that belong to the left (not after the pivot) and right partition. -/
def lefts (lt : α → α → Bool) (pivot : α) (l : List α) : List α := l.filter (fun x => !lt pivot x)
def rights (lt : α → α → Bool) (pivot : α) (l : List α) : List α := l.filter (fun x => lt pivot x)

theorem lefts_append (lt : α → α → Bool) (p : α) (a b : List α) : lefts lt p (a ++ b) = lefts lt p a ++ lefts lt p b := by
  simp [lefts]
theorem rights_append (lt : α → α → Bool) (p : α) (a b : List α) : rights lt p (a ++ b) = rights lt p a ++ rights lt p b := by
  simp [rights]

theorem lefts_rights_perm (lt : α → α → Bool) (p : α) (l : List α) : (lefts lt p l ++ rights lt p l).Perm l := by
  have h := List.filter_append_perm (fun x => !lt p x) l
  simpa [lefts, rights] using h

theorem lr_len (lt : α → α → Bool) (p : α) (l : List α) : (lefts lt p l).length + (rights lt p l).length = l.length := by
  have h := (lefts_rights_perm lt p l).length_eq
  simpa using h

theorem select_map (f : α → Bool) : ∀ v : List α, Vec.select v (v.map f) = v.filter f := by
  intro v
  induction v with
  | nil => rfl
  | cons x v ih =>
    simp only [Vec.select, List.map_cons, List.zip_cons_cons, List.filter_cons] at ih ⊢
    cases f x <;> simp [ih]

theorem select_right (lt : α → α → Bool) (p : α) (v : List α) : Vec.select v (v.map (lt p)) = rights lt p v := select_map _ v

theorem select_left (lt : α → α → Bool) (p : α) (v : List α) :
    Vec.select v ((v.map (lt p)).map not) = lefts lt p v := by
  rw [List.map_map]; exact select_map _ v

theorem count_right (lt : α → α → Bool) (p : α) (v : List α) : (v.map (lt p)).count true = (rights lt p v).length := by
  rw [List.count_eq_countP, List.countP_map, rights, ← List.countP_eq_length_filter]
  congr 1; funext x; simp

theorem storeU_mid {A X B v : List α} {i : Nat} (hi : i = A.length) (h : v.length ≤ X.length) :
    Vec.storeU v (A ++ (X ++ B)) i = .ok (A ++ (v ++ (X.drop v.length ++ B))) := by
  subst hi
  rw [Vec.storeU_ok _ _ _ (by simp; omega)]
  rw [List.take_left, List.drop_append, List.drop_eq_nil_of_le (show A.length ≤ A.length + v.length by omega)]
  rw [show A.length + v.length - A.length = v.length by omega, List.drop_append,
    show v.length - X.length = 0 by omega]
  simp

theorem loadU_mid {A X B : List α} {i N : Nat} (hi : i = A.length) (h : X.length = N) :
    Vec.loadU N (A ++ (X ++ B)) i = .ok X := by
  subst hi; subst h
  rw [Vec.loadU_ok _ _ _ (by simp)]
  rw [List.drop_left, List.take_left]

theorem compressStore_mid (c : Cfg α) {A X B v : List α} {mask : List Bool} {i : Nat} (hi : i = A.length)
    (hX : c.N ≤ X.length) (hs : (Vec.select v mask).length ≤ c.N) :
    ∃ X', compressStore c v mask (A ++ (X ++ B)) i
        = .ok (A ++ (Vec.select v mask ++ (X' ++ B)), (Vec.select v mask).length) ∧
      X'.length + (Vec.select v mask).length = X.length := by
  have hl : (Vec.select v mask ++ (c.junk v mask).take (c.N - (Vec.select v mask).length)).length ≤ c.N := by
    simp; omega
  refine ⟨(c.junk v mask).take (c.N - (Vec.select v mask).length) ++
    X.drop (Vec.select v mask ++ (c.junk v mask).take (c.N - (Vec.select v mask).length)).length, ?_, ?_⟩
  · unfold compressStore
    rw [if_pos (by simp; omega)]
    simp only []
    rw [storeU_mid hi (by omega), ok_bind]
    simp only [List.append_assoc]; rfl
  · simp only [List.length_append, List.length_drop, List.length_take] at *
    omega

/-! ### StoreLeftRight -/

/-- What `storeLeftRight`(s) does to the array: `F` is the concatenation of the vectors. -/
def LRPost (lt : α → α → Bool) (p : α) (A U Mid W D F : List α) (rem : Nat) (s' : LR α) : Prop :=
  ∃ U' W' Rs, s'.keys = (A ++ lefts lt p F) ++ (U' ++ (Mid ++ (W' ++ (Rs ++ D)))) ∧ Rs.Perm (rights lt p F) ∧
    U'.length + (lefts lt p F).length = U.length ∧ W'.length + Rs.length = W.length ∧
    s'.writeL = A.length + (lefts lt p F).length ∧ s'.remaining + F.length = rem

theorem storeLeftRight_spec (c : Cfg α) (lt : α → α → Bool) (p : α) (A U Mid W D v : List α) (s : LR α)
    (hk : s.keys = A ++ (U ++ (Mid ++ (W ++ D)))) (hw : s.writeL = A.length)
    (hr : s.remaining = U.length + Mid.length + W.length) (hU : c.N ≤ U.length) (hW : c.N ≤ W.length)
    (hD : c.isPartition = false → c.rmw = true → c.N ≤ D.length) (hv : v.length = c.N) :
    ∃ s', storeLeftRight c lt p s v = .ok s' ∧ LRPost lt p A U Mid W D v s.remaining s' := by
  have hlr := lr_len lt p v
  obtain ⟨W1, W2, rfl, hW2⟩ : ∃ W1 W2, W = W1 ++ W2 ∧ W2.length = c.N :=
    ⟨W.take (W.length - c.N), W.drop (W.length - c.N), by simp, by simp; omega⟩
  simp only [List.length_append] at hr
  unfold storeLeftRight
  simp only []
  rw [if_neg (by omega)]
  by_cases hp : c.isPartition = true
  · rw [if_pos hp, select_left, select_right, count_right, hk]
    have hl : (lefts lt p v ++ rights lt p v).length = c.N := by simp; omega
    rw [storeU_mid hw (by omega), ok_bind]
    rw [show A ++ (lefts lt p v ++ rights lt p v ++ (List.drop (lefts lt p v ++ rights lt p v).length U ++ (Mid ++ (W1 ++ W2 ++ D))))
      = (A ++ (lefts lt p v ++ rights lt p v ++ (List.drop (lefts lt p v ++ rights lt p v).length U ++ (Mid ++ W1)))) ++ (W2 ++ D) by simp]
    rw [storeU_mid (by simp only [List.length_append, List.length_drop] at *; omega) (by omega), ok_bind]
    refine ⟨_, rfl, rights lt p v ++ U.drop c.N, W1 ++ lefts lt p v, rights lt p v, ?_, List.Perm.refl _, ?_, ?_, ?_, ?_⟩
    · simp only [hl]
      rw [List.drop_eq_nil_of_le (show W2.length ≤ c.N by omega)]
      simp
    · simp; omega
    · simp; omega
    · simp only []; omega
    · simp only []; omega
  · rw [if_neg hp]
    have hp' : c.isPartition = false := by simpa using hp
    obtain ⟨U', h1, h2⟩ := compressStore_mid c (A := A) (X := U) (B := Mid ++ (W1 ++ W2 ++ D)) (v := v)
      (mask := (v.map (lt p)).map not) hw hU (by rw [select_left]; omega)
    rw [hk, h1, ok_bind]
    rw [select_left] at h2 ⊢
    simp only [compressBlended, Vec.compressBlendedStore, select_right]
    rw [if_neg (by
      rintro ⟨h3, h4⟩
      have := hD hp' h3
      simp only [List.length_append] at h4
      omega)]
    obtain ⟨W3, W4, rfl, hW4⟩ : ∃ a b, W2 = a ++ b ∧ b.length = (rights lt p v).length :=
      ⟨W2.take (W2.length - (rights lt p v).length), W2.drop (W2.length - (rights lt p v).length), by simp, by simp; omega⟩
    simp only [List.length_append] at hr hW2 hW
    rw [show A ++ (lefts lt p v ++ (U' ++ (Mid ++ (W1 ++ (W3 ++ W4) ++ D))))
      = (A ++ (lefts lt p v ++ (U' ++ (Mid ++ (W1 ++ W3))))) ++ (W4 ++ D) by simp]
    rw [storeU_mid (by simp only [List.length_append] at *; omega) (by omega), ok_bind]
    refine ⟨_, rfl, U', W1 ++ W3, rights lt p v, ?_, List.Perm.refl _, h2, ?_, ?_, ?_⟩
    · simp only []
      rw [List.drop_eq_nil_of_le (show W4.length ≤ _ by omega)]
      simp
    · simp; omega
    · simp only []; omega
    · simp only []; omega

theorem storeLeftRights_spec (c : Cfg α) (lt : α → α → Bool) (p : α) (Mid : List α) : ∀ (vs : List (List α)) (A U W D : List α) (s : LR α),
    s.keys = A ++ (U ++ (Mid ++ (W ++ D))) → s.writeL = A.length →
    s.remaining = U.length + Mid.length + W.length → vs.length * c.N ≤ U.length → vs.length * c.N ≤ W.length →
    (c.isPartition = false → c.rmw = true → c.N ≤ D.length) → (∀ v ∈ vs, v.length = c.N) →
    ∃ s', storeLeftRights c lt p s vs = .ok s' ∧ LRPost lt p A U Mid W D vs.flatten s.remaining s' := by
  intro vs
  induction vs with
  | nil =>
    intro A U W D s hk hw hr _ _ _ _
    exact ⟨s, rfl, U, W, [], by simpa [lefts] using hk, by simp [rights], by simp [lefts], by simp, by simp [lefts, hw], by simp⟩
  | cons v vs ih =>
    intro A U W D s hk hw hr hU hW hD hv
    simp only [List.length_cons, Nat.add_mul, Nat.one_mul] at hU hW
    have hvl := hv v (by simp)
    obtain ⟨s1, h1, U1, W1, R1, q1, q2, q3, q4, q5, q6⟩ := storeLeftRight_spec c lt p A U Mid W D v s hk hw hr
      (by omega) (by omega) hD hvl
    have hlr := lr_len lt p v
    have hR := q2.length_eq
    obtain ⟨s2, h2, U2, W2, R2, r1, r2, r3, r4, r5, r6⟩ := ih (A ++ lefts lt p v) U1 W1 (R1 ++ D) s1 q1
      (by simpa using q5) (by omega) (by omega) (by omega)
      (fun a b => by have := hD a b; simp; omega) (fun w hw => hv w (by simp [hw]))
    refine ⟨s2, ?_, U2, W2, R2 ++ R1, ?_, ?_, ?_, ?_, ?_, ?_⟩
    · simp only [storeLeftRights, List.foldlM_cons] at h2 ⊢
      rw [h1, ok_bind, h2]
    · rw [r1]; simp [lefts_append]
    · rw [List.flatten_cons, rights_append]
      exact (List.perm_append_comm.trans (List.Perm.append q2 r2))
    · rw [List.flatten_cons, lefts_append, List.length_append]; omega
    · rw [List.length_append]; omega
    · rw [List.flatten_cons, lefts_append]; simp only [List.length_append] at r5 ⊢; omega
    · rw [List.flatten_cons, List.length_append]; omega

/-- The same when nothing is left to read: a single free region `G`. -/
theorem storeLeftRights_free (c : Cfg α) (lt : α → α → Bool) (p : α) : ∀ (vs : List (List α)) (A G D : List α) (s : LR α),
    s.keys = A ++ (G ++ D) → s.writeL = A.length → s.remaining = G.length → (vs.length + 1) * c.N ≤ G.length →
    (c.isPartition = false → c.rmw = true → c.N ≤ D.length) → (∀ v ∈ vs, v.length = c.N) →
    ∃ s' G' Rs, storeLeftRights c lt p s vs = .ok s' ∧ s'.keys = (A ++ lefts lt p vs.flatten) ++ (G' ++ (Rs ++ D)) ∧
      Rs.Perm (rights lt p vs.flatten) ∧ G'.length + vs.length * c.N = G.length ∧
      s'.writeL = A.length + (lefts lt p vs.flatten).length ∧ s'.remaining = G'.length := by
  intro vs
  induction vs with
  | nil =>
    intro A G D s hk hw hr _ _ _
    exact ⟨s, G, [], rfl, by simpa [lefts] using hk, by simp [rights], by simp, by simp [lefts, hw], hr⟩
  | cons v vs ih =>
    intro A G D s hk hw hr hG hD hv
    simp only [List.length_cons, Nat.add_mul, Nat.one_mul] at hG
    have hvl := hv v (by simp)
    have hlr := lr_len lt p v
    obtain ⟨s1, h1, U1, W1, R1, q1, q2, q3, q4, q5, q6⟩ := storeLeftRight_spec c lt p A (G.take c.N) [] (G.drop c.N) D v s
      (by rw [hk, List.nil_append, ← List.append_assoc (G.take c.N), List.take_append_drop]) hw (by simp; omega)
      (by simp; omega) (by simp; omega) hD hvl
    have hR := q2.length_eq
    simp only [List.length_take, List.length_drop] at q3 q4
    obtain ⟨s2, G2, R2, h2, r1, r2, r3, r4, r5⟩ := ih (A ++ lefts lt p v) (U1 ++ W1) (R1 ++ D) s1 (by rw [q1]; simp)
      (by simpa using q5) (by simp; omega) (by simp only [List.length_append, Nat.add_mul, Nat.one_mul]; omega)
      (fun a b => by have := hD a b; simp; omega) (fun w hw => hv w (by simp [hw]))
    refine ⟨s2, G2, R2 ++ R1, ?_, ?_, ?_, ?_, ?_, r5⟩
    · simp only [storeLeftRights, List.foldlM_cons] at h2 ⊢
      rw [h1, ok_bind, h2]
    · rw [r1]; simp [lefts_append]
    · rw [List.flatten_cons, rights_append]
      exact (List.perm_append_comm.trans (List.Perm.append q2 r2))
    · simp only [List.length_append, List.length_cons, Nat.add_mul, Nat.one_mul] at r3 ⊢; omega
    · rw [List.flatten_cons, lefts_append]; simp only [List.length_append] at r4 ⊢; omega

/-! ### Main loop -/

theorem load4_spec (N : Nat) {A X B : List α} {i : Nat} (hi : i = A.length) (h : X.length = 4 * N) :
    ∃ vs, load4 N (A ++ (X ++ B)) i = .ok vs ∧ vs.length = 4 ∧ vs.flatten = X ∧ ∀ v ∈ vs, v.length = N := by
  obtain ⟨a, b, c, e, rfl, ha, hb, hc, he⟩ : ∃ a b c e : List α, X = a ++ (b ++ (c ++ e)) ∧ a.length = N ∧ b.length = N ∧
      c.length = N ∧ e.length = N := by
    refine ⟨X.take N, (X.drop N).take N, (X.drop (2 * N)).take N, X.drop (3 * N), ?_, ?_, ?_, ?_, ?_⟩
    · rw [show 2 * N = N + N by omega, show 3 * N = N + (N + N) by omega, ← List.drop_drop, ← List.drop_drop,
        ← List.drop_drop, List.take_append_drop, List.take_append_drop, List.take_append_drop]
    all_goals simp; omega
  refine ⟨[a, b, c, e], ?_, rfl, by simp, by simp [ha, hb, hc, he]⟩
  have e0 : Vec.loadU N (A ++ (a ++ (b ++ (c ++ e)) ++ B)) (i + 0 * N) = .ok a := by
    rw [show A ++ (a ++ (b ++ (c ++ e)) ++ B) = A ++ (a ++ (b ++ (c ++ (e ++ B)))) by simp]
    exact loadU_mid (by omega) ha
  have e1 : Vec.loadU N (A ++ (a ++ (b ++ (c ++ e)) ++ B)) (i + 1 * N) = .ok b := by
    rw [show A ++ (a ++ (b ++ (c ++ e)) ++ B) = (A ++ a) ++ (b ++ (c ++ (e ++ B))) by simp]
    exact loadU_mid (by simp; omega) hb
  have e2 : Vec.loadU N (A ++ (a ++ (b ++ (c ++ e)) ++ B)) (i + 2 * N) = .ok c := by
    rw [show A ++ (a ++ (b ++ (c ++ e)) ++ B) = (A ++ (a ++ b)) ++ (c ++ (e ++ B)) by simp]
    exact loadU_mid (by simp; omega) hc
  have e3 : Vec.loadU N (A ++ (a ++ (b ++ (c ++ e)) ++ B)) (i + 3 * N) = .ok e := by
    rw [show A ++ (a ++ (b ++ (c ++ e)) ++ B) = (A ++ (a ++ (b ++ c))) ++ (e ++ B) by simp]
    exact loadU_mid (by simp; omega) he
  simp only [load4, show List.range 4 = [0, 1, 2, 3] from rfl, List.mapM_cons, List.mapM_nil, e0, e1, e2, e3]
  rfl

theorem mainLoop_spec (c : Cfg α) (lt : α → α → Bool) (p : α) : ∀ (m fuel : Nat) (A U Mid W D : List α) (s : LR α)
    (readL readR : Nat), m < fuel → Mid.length = m * (4 * c.N) → 0 < c.N → readL = A.length + U.length →
    readR = readL + Mid.length → s.keys = A ++ (U ++ (Mid ++ (W ++ D))) → s.writeL = A.length →
    s.remaining = U.length + Mid.length + W.length → 8 * c.N ≤ U.length + W.length →
    (c.isPartition = false → c.rmw = true → c.N ≤ D.length) →
    ∃ s' Ls G Rs, mainLoop c lt p fuel readL readR s = .ok s' ∧ s'.keys = (A ++ Ls) ++ (G ++ (Rs ++ D)) ∧
      Ls.Perm (lefts lt p Mid) ∧ Rs.Perm (rights lt p Mid) ∧ G.length = U.length + W.length ∧
      s'.writeL = A.length + Ls.length ∧ s'.remaining = G.length := by
  intro m
  induction m with
  | zero =>
    intro fuel A U Mid W D s readL readR hf hm hN hL hR hk hw hr _ _
    have hm0 : Mid = [] := List.length_eq_zero_iff.mp (by omega)
    subst hm0
    obtain ⟨fuel, rfl⟩ : ∃ f, fuel = f + 1 := ⟨fuel - 1, by omega⟩
    unfold mainLoop
    rw [if_pos (by simpa using hR.symm)]
    exact ⟨s, [], U ++ W, [], rfl, by simpa using hk, by simp [lefts], by simp [rights], by simp, by simpa using hw, by simpa using hr⟩
  | succ m ih =>
    intro fuel A U Mid W D s readL readR hf hm hN hL hR hk hw hr hUW hD
    obtain ⟨fuel, rfl⟩ : ∃ f, fuel = f + 1 := ⟨fuel - 1, by omega⟩
    rw [Nat.add_mul, Nat.one_mul] at hm
    generalize hq : m * (4 * c.N) = q at *
    unfold mainLoop
    rw [if_neg (by omega), if_neg (by omega)]
    by_cases hc : readL - s.writeL > 4 * c.N
    · rw [if_pos hc, if_neg (by omega)]
      obtain ⟨M1, B, rfl, hB⟩ : ∃ M1 B, Mid = M1 ++ B ∧ B.length = 4 * c.N :=
        ⟨Mid.take q, Mid.drop q, by simp, by simp; omega⟩
      simp only [List.length_append] at hm hR hr
      have hk1 : s.keys = (A ++ (U ++ M1)) ++ (B ++ (W ++ D)) := by rw [hk]; simp
      have hk2 : s.keys = A ++ (U ++ (M1 ++ ((B ++ W) ++ D))) := by rw [hk]; simp
      obtain ⟨vs, e1, e2, e3, e4⟩ := load4_spec c.N (i := readR - 4 * c.N) (A := A ++ (U ++ M1)) (X := B) (B := W ++ D)
        (by simp; omega) hB
      rw [hk1, e1, ok_bind]
      obtain ⟨s1, h1, U1, W1, R1, q1, q2, q3, q4, q5, q6⟩ := storeLeftRights_spec c lt p M1 vs A U (B ++ W) D s hk2 hw
        (by simp; omega) (by rw [e2]; omega) (by rw [e2]; simp; omega) hD e4
      rw [h1, ok_bind]
      rw [e3] at q1 q2 q3 q5 q6
      have hlr := lr_len lt p B
      have hRl := q2.length_eq
      simp only [List.length_append] at q4
      obtain ⟨s2, Ls, G, Rs, r0, r1, r2, r3, r4, r5, r6⟩ := ih fuel (A ++ lefts lt p B) U1 M1 W1 (R1 ++ D) s1 readL
        (readR - 4 * c.N) (by omega) (by omega) hN (by simp; omega) (by omega) q1 (by simpa using q5) (by omega) (by omega)
        (fun a b => by have := hD a b; simp; omega)
      refine ⟨s2, lefts lt p B ++ Ls, G, Rs ++ R1, r0, by rw [r1]; simp, ?_, ?_, by omega, ?_, r6⟩
      · rw [lefts_append]; exact List.perm_append_comm.trans (List.Perm.append r2 (List.Perm.refl _))
      · rw [rights_append]; exact List.Perm.append r3 q2
      · simp only [List.length_append] at r5 ⊢; omega
    · rw [if_neg hc]
      obtain ⟨B, M1, rfl, hB⟩ : ∃ B M1, Mid = B ++ M1 ∧ B.length = 4 * c.N :=
        ⟨Mid.take (4 * c.N), Mid.drop (4 * c.N), by simp, by simp; omega⟩
      simp only [List.length_append] at hm hR hr
      have hk1 : s.keys = (A ++ U) ++ (B ++ (M1 ++ (W ++ D))) := by rw [hk]; simp
      have hk2 : s.keys = A ++ ((U ++ B) ++ (M1 ++ (W ++ D))) := by rw [hk]; simp
      obtain ⟨vs, e1, e2, e3, e4⟩ := load4_spec c.N (i := readL) (A := A ++ U) (X := B) (B := M1 ++ (W ++ D))
        (by simp; omega) hB
      rw [hk1, e1, ok_bind]
      obtain ⟨s1, h1, U1, W1, R1, q1, q2, q3, q4, q5, q6⟩ := storeLeftRights_spec c lt p M1 vs A (U ++ B) W D s hk2 hw
        (by simp; omega) (by rw [e2]; simp; omega) (by rw [e2]; omega) hD e4
      rw [h1, ok_bind]
      rw [e3] at q1 q2 q3 q5 q6
      have hlr := lr_len lt p B
      have hRl := q2.length_eq
      simp only [List.length_append] at q3
      obtain ⟨s2, Ls, G, Rs, r0, r1, r2, r3, r4, r5, r6⟩ := ih fuel (A ++ lefts lt p B) U1 M1 W1 (R1 ++ D) s1
        (readL + 4 * c.N) readR (by omega) (by omega) hN (by simp; omega) (by omega) q1 (by simpa using q5) (by omega) (by omega)
        (fun a b => by have := hD a b; simp; omega)
      refine ⟨s2, lefts lt p B ++ Ls, G, Rs ++ R1, r0, by rw [r1]; simp, ?_, ?_, by omega, ?_, r6⟩
      · rw [lefts_append]; exact List.Perm.append (List.Perm.refl _) r2
      · rw [rights_append]; exact List.perm_append_comm.trans (List.Perm.append q2 r3)
      · simp only [List.length_append] at r5 ⊢; omega

/-! ### StoreRightAndBuf -/

theorem storeRightAndBuf_spec (c : Cfg α) (lt : α → α → Bool) (p : α) (A G D Lb X v : List α) (s : RB α)
    (hk : s.keys = A ++ (G ++ D)) (hw : s.writeR = A.length + G.length) (hb : s.buf = Lb ++ X) (hbl : s.bufL = Lb.length)
    (hG : c.N ≤ G.length) (hX : c.N ≤ X.length) (hv : v.length = c.N) :
    ∃ s' G' X', storeRightAndBuf c lt p s v = .ok s' ∧ s'.keys = A ++ (G' ++ (rights lt p v ++ D)) ∧
      G'.length + (rights lt p v).length = G.length ∧ s'.writeR = A.length + G'.length ∧
      s'.buf = (Lb ++ lefts lt p v) ++ X' ∧ X'.length + (lefts lt p v).length = X.length ∧
      s'.bufL = (Lb ++ lefts lt p v).length := by
  have hlr := lr_len lt p v
  obtain ⟨X', h1, h2⟩ := compressStore_mid c (A := Lb) (X := X) (B := []) (v := v)
      (mask := (v.map (lt p)).map not) hbl hX (by rw [select_left]; omega)
  simp only [List.append_nil] at h1
  unfold storeRightAndBuf
  rw [select_left] at h1 h2
  rw [hb]
  simp only []
  rw [h1, ok_bind]
  simp only []
  rw [if_neg (by omega)]
  obtain ⟨G1, G2, rfl, hG2⟩ : ∃ a b, G = a ++ b ∧ b.length = (rights lt p v).length :=
    ⟨G.take (G.length - (rights lt p v).length), G.drop (G.length - (rights lt p v).length), by simp, by simp; omega⟩
  simp only [List.length_append] at hw
  rw [select_right, Vec.storeN, List.take_of_length_le (by omega), hk,
    show A ++ (G1 ++ G2 ++ D) = (A ++ G1) ++ (G2 ++ D) by simp,
    storeU_mid (by simp; omega) (by omega), ok_bind]
  refine ⟨_, G1, X', rfl, ?_, ?_, ?_, ?_, h2, ?_⟩
  · simp only []
    rw [List.drop_eq_nil_of_le (by omega)]; simp
  · simp; omega
  · simp only []; omega
  · simp
  · simp; omega

/-! ### PartitionRightmost -/

theorem rightmostNum_spec (N num : Nat) (hN : 0 < N) (h : 2 * N < num) :
    N ≤ rightmostNum N num ∧ rightmostNum N num ≤ num ∧ rightmostNum N num < 13 * N ∧
      ∃ m, num - rightmostNum N num = m * (4 * N) ∧ (m = 0 ∨ 2 ≤ m) := by
  unfold rightmostNum
  simp only []
  have h1 : num % (4 * N) < 4 * N := Nat.mod_lt _ (by omega)
  have h2 := Nat.div_add_mod num (4 * N)
  generalize num % (4 * N) = r at *
  generalize num / (4 * N) = q at *
  rw [Nat.mul_comm] at h2
  by_cases hr : r < N
  · rw [if_pos hr]
    split
    · exact ⟨by omega, by omega, by omega, 0, by omega, Or.inl rfl⟩
    · rename_i h3
      have hq : 2 ≤ q := by
        rcases Nat.lt_or_ge q 2 with h4 | h4
        · have : q * (4 * N) ≤ 1 * (4 * N) := Nat.mul_le_mul_right _ (by omega)
          omega
        · exact h4
      refine ⟨by omega, by omega, by omega, q - 1, ?_, ?_⟩
      · rw [Nat.sub_mul]; omega
      · right
        rcases Nat.lt_or_ge q 3 with h4 | h4
        · have : q * (4 * N) ≤ 2 * (4 * N) := Nat.mul_le_mul_right _ (by omega)
          omega
        · omega
  · rw [if_neg hr]
    split
    · exact ⟨by omega, by omega, by omega, 0, by omega, Or.inl rfl⟩
    · rename_i h3
      refine ⟨by omega, by omega, by omega, q, by omega, ?_⟩
      right
      rcases Nat.lt_or_ge q 2 with h4 | h4
      · have : q * (4 * N) ≤ 1 * (4 * N) := Nat.mul_le_mul_right _ (by omega)
        omega
      · exact h4

/-- State after processing the keys `P` from the right end. -/
def RMInv (c : Cfg α) (lt : α → α → Bool) (p : α) (keys : List α) (len i : Nat) (s : RM α) : Prop :=
  ∃ Ls X Rs Y, s.buf = Ls ++ (X ++ (Rs ++ Y)) ∧ Ls.length + X.length = 13 * c.N ∧ s.buf.length = len ∧
    s.readR + i = keys.length ∧ s.bufL = Ls.length ∧ s.bufR = 13 * c.N + Rs.length ∧
    Ls.Perm (lefts lt p (keys.drop s.readR)) ∧ Rs.Perm (rights lt p (keys.drop s.readR))

theorem split_at (keys : List α) (a n : Nat) (h : a + n ≤ keys.length) :
    keys.drop a = (keys.drop a).take n ++ keys.drop (a + n) := by
  rw [← List.drop_drop, List.take_append_drop]

theorem rmStep_spec (c : Cfg α) (lt : α → α → Bool) (p : α) (keys : List α) (len i : Nat) (s : RM α)
    (h : RMInv c lt p keys len i s) (hi : i + c.N ≤ 13 * c.N) (hk : i + c.N ≤ keys.length) (hl : 26 * c.N ≤ len) :
    ∃ s', rmStep c lt p keys s = .ok s' ∧ RMInv c lt p keys len (i + c.N) s' := by
  obtain ⟨Ls, X, Rs, Y, h1, h2, h3, h4, h5, h6, h7, h8⟩ := h
  have hpl := h7.length_eq
  have hpr := h8.length_eq
  have hlr := lr_len lt p (keys.drop s.readR)
  have hd : (keys.drop s.readR).length = i := by simp; omega
  have hlen : s.buf.length = Ls.length + (X.length + (Rs.length + Y.length)) := by rw [h1]; simp
  unfold rmStep
  rw [if_neg (by omega), Vec.loadU_ok _ _ _ (by omega), ok_bind]
  have hsp := split_at keys (s.readR - c.N) c.N (by omega)
  rw [show s.readR - c.N + c.N = s.readR by omega] at hsp
  generalize hv : (keys.drop (s.readR - c.N)).take c.N = v at *
  have hvl : v.length = c.N := by rw [← hv]; simp; omega
  have hlv := lr_len lt p v
  simp only []
  obtain ⟨X', a1, a2⟩ := compressStore_mid c (A := Ls) (X := X) (B := Rs ++ Y) (v := v)
      (mask := (v.map (lt p)).map not) h5 (by omega) (by rw [select_left]; omega)
  rw [select_left] at a1 a2
  rw [h1, a1, ok_bind]
  simp only []
  obtain ⟨Y', b1, b2⟩ := compressStore_mid c (A := Ls ++ (lefts lt p v ++ (X' ++ Rs))) (X := Y) (B := []) (v := v)
      (mask := v.map (lt p)) (i := s.bufR) (by simp; omega) (by omega) (by rw [select_right]; omega)
  rw [select_right] at b1 b2
  simp only [List.append_nil] at b1
  rw [show Ls ++ (lefts lt p v ++ (X' ++ (Rs ++ Y))) = Ls ++ (lefts lt p v ++ (X' ++ Rs)) ++ Y by simp, b1, ok_bind]
  refine ⟨_, rfl, Ls ++ lefts lt p v, X', Rs ++ rights lt p v, Y', by simp, ?_, ?_, ?_, ?_, ?_, ?_, ?_⟩
  · simp; omega
  · simp; omega
  · simp only []; omega
  · simp; omega
  · simp; omega
  · simp only []
    rw [hsp, lefts_append]
    exact List.perm_append_comm.trans (List.Perm.append (List.Perm.refl _) h7)
  · simp only []
    rw [hsp, rights_append]
    exact List.perm_append_comm.trans (List.Perm.append (List.Perm.refl _) h8)

theorem rmLoop_spec (c : Cfg α) (lt : α → α → Bool) (p : α) (keys : List α) (len here : Nat) (hN : 0 < c.N)
    (h1 : c.N ≤ here) (h2 : here < 13 * c.N) (h3 : here ≤ keys.length) (hl : 26 * c.N ≤ len) :
    ∀ fuel i s, here < i + fuel → i ≤ here → c.N ∣ i → RMInv c lt p keys len i s →
    ∃ j s', rmLoop c lt p keys here fuel i s = .ok (j, s') ∧ RMInv c lt p keys len j s' ∧ j ≤ here ∧ here < j + c.N ∧ j ≤ 12 * c.N := by
  intro fuel
  induction fuel with
  | zero => intro i s hf hi; omega
  | succ fuel ih =>
    intro i s hf hi hd hs
    unfold rmLoop
    by_cases hc : i ≤ here - c.N
    · rw [if_pos hc]
      obtain ⟨s1, e1, e2⟩ := rmStep_spec c lt p keys len i s hs (by omega) (by omega) hl
      rw [e1, ok_bind]
      exact ih _ s1 (by omega) (by omega) (Nat.dvd_add hd (Nat.dvd_refl _)) e2
    · rw [if_neg hc]
      refine ⟨i, s, rfl, hs, hi, by omega, ?_⟩
      obtain ⟨k, rfl⟩ := hd
      rw [Nat.mul_comm]
      apply Nat.mul_le_mul_right
      have : c.N * k < c.N * 13 := by omega
      have := Nat.lt_of_mul_lt_mul_left this
      omega

theorem select_last (lt : α → α → Bool) (p : α) (w z : List α) :
    Vec.select (w ++ z) (List.zipWith (fun cm m => !cm && m) ((w ++ z).map (lt p)) (Vec.firstN (w.length + z.length) w.length))
      = lefts lt p w := by
  have hf : Vec.firstN (w.length + z.length) w.length = List.replicate w.length true ++ List.replicate z.length false := by
    apply List.ext_getElem (by simp [Vec.firstN])
    intro n h1 h2
    simp only [Vec.firstN, List.length_map, List.length_range] at h1
    simp only [Vec.firstN, List.getElem_map, List.getElem_range]
    rw [List.getElem_append]
    split
    · rename_i h; simp only [List.length_replicate] at h; simp [h]
    · rename_i h; simp only [List.length_replicate] at h; simp; omega
  rw [hf, List.map_append, List.zipWith_append (by simp)]
  have zr : ∀ (l : List Bool) (b : Bool), List.zipWith (fun cm m => !cm && m) l (List.replicate l.length b) = l.map (fun cm => !cm && b) := by
    intro l b
    induction l with
    | nil => rfl
    | cons x l ih => simp [List.replicate_succ, ih]
  have e1 : List.zipWith (fun cm m => !cm && m) (w.map (lt p)) (List.replicate w.length true) = (w.map (lt p)).map not := by
    have := zr (w.map (lt p)) true
    rw [List.length_map] at this
    rw [this]; simp
  have e2 : List.zipWith (fun cm m => !cm && m) (z.map (lt p)) (List.replicate z.length false) = z.map (fun _ => false) := by
    have := zr (z.map (lt p)) false
    rw [List.length_map] at this
    rw [this]; simp
  rw [e1, e2]
  have : Vec.select (w ++ z) ((w.map (lt p)).map not ++ z.map (fun _ => false))
      = Vec.select w ((w.map (lt p)).map not) ++ Vec.select z (z.map (fun _ => false)) := by
    simp only [Vec.select]
    rw [List.zip_append (by simp)]
    simp
  rw [this, select_left, select_map]
  simp

theorem rmLast_spec (c : Cfg α) (lt : α → α → Bool) (p : α) (keys : List α) (len i r : Nat) (s : RM α)
    (h : RMInv c lt p keys len i s) (hi : i ≤ 12 * c.N) (hr : r < c.N) (hk : i + r ≤ keys.length) (hl : 26 * c.N ≤ len) :
    ∃ s', rmLast c lt p keys r s = .ok s' ∧ RMInv c lt p keys len (i + r) s' := by
  unfold rmLast
  by_cases h0 : r = 0
  · rw [if_pos h0]; subst h0; exact ⟨s, rfl, h⟩
  rw [if_neg h0]
  obtain ⟨Ls, X, Rs, Y, h1, h2, h3, h4, h5, h6, h7, h8⟩ := h
  have hpl := h7.length_eq
  have hpr := h8.length_eq
  have hlr := lr_len lt p (keys.drop s.readR)
  have hd : (keys.drop s.readR).length = i := by simp; omega
  have hlen : s.buf.length = Ls.length + (X.length + (Rs.length + Y.length)) := by rw [h1]; simp
  rw [if_neg (by omega), Vec.loadN, Nat.min_eq_left (by omega), if_pos (by omega), ok_bind]
  have hsp := split_at keys (s.readR - r) r (by omega)
  rw [show s.readR - r + r = s.readR by omega] at hsp
  generalize hv : (keys.drop (s.readR - r)).take r = w at *
  have hwl : w.length = r := by rw [← hv]; simp; omega
  have hlv := lr_len lt p w
  simp only []
  generalize hz : List.replicate (c.N - r) c.zero = z
  have hzl : z.length = c.N - r := by rw [← hz]; simp
  have hNe : c.N = w.length + z.length := by omega
  have hsel := select_last lt p w z
  rw [← hNe, hwl] at hsel
  obtain ⟨X', a1, a2⟩ := compressStore_mid c (A := Ls) (X := X) (B := Rs ++ Y) (v := w ++ z)
      (mask := List.zipWith (fun cm m => !cm && m) ((w ++ z).map (lt p)) (Vec.firstN c.N r)) h5 (by omega) (by rw [hsel]; omega)
  rw [hsel] at a1 a2
  rw [h1, a1, ok_bind]
  simp only []
  have hlz := lr_len lt p z
  obtain ⟨Y', b1, b2⟩ := compressStore_mid c (A := Ls ++ (lefts lt p w ++ (X' ++ Rs))) (X := Y) (B := []) (v := w ++ z)
      (mask := (w ++ z).map (lt p)) (i := s.bufR) (by simp; omega) (by omega)
      (by rw [select_right, rights_append, List.length_append]; omega)
  rw [select_right, rights_append, List.length_append] at b1 b2
  simp only [List.append_nil] at b1
  rw [show Ls ++ (lefts lt p w ++ (X' ++ (Rs ++ Y))) = Ls ++ (lefts lt p w ++ (X' ++ Rs)) ++ Y by simp, b1, ok_bind]
  refine ⟨_, rfl, Ls ++ lefts lt p w, X', Rs ++ rights lt p w, rights lt p z ++ Y', by simp, ?_, ?_, ?_, ?_, ?_, ?_, ?_⟩
  · simp; omega
  · simp; omega
  · simp only []; omega
  · simp; omega
  · simp; omega
  · simp only []
    rw [hsp, lefts_append]
    exact List.perm_append_comm.trans (List.Perm.append (List.Perm.refl _) h7)
  · simp only []
    rw [hsp, rights_append]
    exact List.perm_append_comm.trans (List.Perm.append (List.Perm.refl _) h8)

theorem partitionRightmost_spec (c : Cfg α) (lt : α → α → Bool) (p : α) (keys buf : List α) (hN : 0 < c.N)
    (hk : 2 * c.N < keys.length) (hb : 26 * c.N ≤ buf.length) :
    ∃ m Main G Ls Rs X, partitionRightmost c lt p keys buf
        = .ok (m * (4 * c.N), Ls.length, keys.length - Rs.length, Main ++ (G ++ Rs), Ls ++ X) ∧
      (m = 0 ∨ 2 ≤ m) ∧ Main.length = m * (4 * c.N) ∧ Main = keys.take (m * (4 * c.N)) ∧ G.length = Ls.length ∧
      Main.length + G.length + Rs.length = keys.length ∧ (Ls ++ X).length = buf.length ∧
      Ls.length + Rs.length < 13 * c.N ∧
      Ls.Perm (lefts lt p (keys.drop (m * (4 * c.N)))) ∧ Rs.Perm (rights lt p (keys.drop (m * (4 * c.N)))) := by
  obtain ⟨h1, h2, h3, m, hm, hm2⟩ := rightmostNum_spec c.N keys.length hN hk
  unfold partitionRightmost
  simp only []
  rw [if_neg (by omega)]
  generalize rightmostNum c.N keys.length = here at *
  obtain ⟨j, s1, e1, e2, e3, e4, e5⟩ := rmLoop_spec c lt p keys buf.length here hN h1 h3 h2 hb (here + 1) 0
    ⟨keys.length, 0, (3 * 4 + 1) * c.N, buf⟩ (by omega) (by omega) (Nat.dvd_zero _)
    ⟨[], buf.take (13 * c.N), [], buf.drop (13 * c.N), by simp, by simp; omega, rfl, by simp, rfl, by simp, by simp [lefts],
      by simp [rights]⟩
  rw [e1, ok_bind]
  simp only []
  obtain ⟨s2, f1, f2⟩ := rmLast_spec c lt p keys buf.length j (here - j) s1 e2 e5 (by omega) (by omega) hb
  rw [f1, ok_bind]
  rw [show j + (here - j) = here by omega] at f2
  obtain ⟨Ls, X, Rs, Y, g1, g2, g3, g4, g5, g6, g7, g8⟩ := f2
  have hrd : s2.readR = m * (4 * c.N) := by omega
  rw [hrd] at g7 g8
  have hpl := g7.length_eq
  have hpr := g8.length_eq
  have hlr := lr_len lt p (keys.drop (m * (4 * c.N)))
  rw [List.length_drop] at hlr
  have hnw : s2.bufR - (3 * 4 + 1) * c.N = Rs.length := by omega
  rw [hnw, g1, show Ls ++ (X ++ (Rs ++ Y)) = (Ls ++ X) ++ (Rs ++ Y) by simp, loadU_mid (by simp; omega) rfl, ok_bind]
  have hsplit : keys = (keys.take (m * (4 * c.N)) ++ (keys.drop (m * (4 * c.N))).take Ls.length)
      ++ ((keys.drop (m * (4 * c.N) + Ls.length)) ++ []) := by
    rw [← List.drop_drop, List.append_nil, List.append_assoc, List.take_append_drop, List.take_append_drop]
  generalize hM : keys.take (m * (4 * c.N)) = Main at *
  generalize hG : (keys.drop (m * (4 * c.N))).take Ls.length = G at *
  have hMl : Main.length = m * (4 * c.N) := by rw [← hM]; simp; omega
  have hGl : G.length = Ls.length := by rw [← hG]; simp; omega
  have hst : Vec.storeU Rs keys (keys.length - Rs.length) = .ok (Main ++ (G ++ Rs)) := by
    conv_lhs => rw [hsplit]
    rw [storeU_mid (by simp; omega) (by simp; omega), List.drop_eq_nil_of_le (by simp; omega)]
    simp
  rw [hst, ok_bind]
  refine ⟨m, Main, G, Ls, Rs, X ++ (Rs ++ Y), ?_, hm2, hMl, by first | rfl | exact hM.symm, hGl, by omega, ?_, by omega, g7, g8⟩
  · rw [hm, g5]; simp; rfl
  · rw [← g3, g1]

/-! ### Partition -/

theorem partitionMain_spec (c : Cfg α) (lt : α → α → Bool) (p : α) (m : Nat) (Main G Ls Rs X : List α) (hN : 0 < c.N)
    (hm : 2 ≤ m) (hM : Main.length = m * (4 * c.N)) (hG : G.length = Ls.length) (hX : 2 * c.N ≤ X.length)
    (hD : c.isPartition = false → c.rmw = true → c.N ≤ Rs.length) :
    ∃ wl r A G' R X' Lb, partitionMain c lt p (m * (4 * c.N)) Ls.length (Main.length + G.length) (Main ++ (G ++ Rs)) (Ls ++ X)
        = .ok (wl, r) ∧ wl = A.length ∧ r.writeR = A.length + G'.length ∧ r.keys = A ++ (G' ++ (R ++ Rs)) ∧
      r.buf = Ls ++ Lb ++ X' ∧ r.bufL = (Ls ++ Lb).length ∧ G'.length = (Ls ++ Lb).length ∧
      r.buf.length = (Ls ++ X).length ∧
      (A ++ Lb).Perm (lefts lt p Main) ∧ R.Perm (rights lt p Main) := by
  obtain ⟨k, rfl⟩ : ∃ k, m = k + 2 := ⟨m - 2, by omega⟩
  rw [Nat.add_mul] at *
  obtain ⟨B1, Mid, B2, rfl, hB1, hMid, hB2⟩ : ∃ a b d : List α, Main = a ++ (b ++ d) ∧ a.length = 4 * c.N ∧
      b.length = k * (4 * c.N) ∧ d.length = 4 * c.N := by
    refine ⟨Main.take (4 * c.N), (Main.drop (4 * c.N)).take (k * (4 * c.N)), (Main.drop (4 * c.N)).drop (k * (4 * c.N)), ?_, ?_, ?_, ?_⟩
    · rw [List.take_append_drop, List.take_append_drop]
    all_goals simp; omega
  generalize hq : k * (4 * c.N) = q at *
  have hfuel : k < q + 2 * (4 * c.N) + 1 := by
    have : k * 1 ≤ k * (4 * c.N) := Nat.mul_le_mul_left _ (by omega)
    omega
  simp only [List.length_append] at hM
  unfold partitionMain
  obtain ⟨vL, l1, l2, l3, l4⟩ := load4_spec c.N (i := 0) (A := []) (X := B1) (B := Mid ++ (B2 ++ (G ++ Rs))) rfl hB1
  obtain ⟨vR, k1, k2, k3, k4⟩ := load4_spec c.N (i := q + 2 * (4 * c.N) - 4 * c.N) (A := B1 ++ Mid) (X := B2) (B := G ++ Rs)
    (by simp; omega) hB2
  rw [show B1 ++ (Mid ++ B2) ++ (G ++ Rs) = [] ++ (B1 ++ (Mid ++ (B2 ++ (G ++ Rs)))) by simp, l1, ok_bind]
  rw [show [] ++ (B1 ++ (Mid ++ (B2 ++ (G ++ Rs)))) = (B1 ++ Mid) ++ (B2 ++ (G ++ Rs)) by simp, k1, ok_bind]
  obtain ⟨s1, L1, G1, R1, a0, a1, a2, a3, a4, a5, a6⟩ := mainLoop_spec c lt p k (q + 2 * (4 * c.N) + 1) [] B1 Mid (B2 ++ G) Rs
    ⟨B1 ++ Mid ++ (B2 ++ (G ++ Rs)), 0, (B1 ++ (Mid ++ B2)).length + G.length⟩ (4 * c.N) (q + 2 * (4 * c.N) - 4 * c.N) hfuel
    (by omega) hN (by simp; omega) (by omega) (by simp) rfl (by simp; omega) (by simp; omega) hD
  rw [a0, ok_bind]
  simp only [List.nil_append, List.length_append, List.length_nil, Nat.zero_add] at a1 a4 a5
  have r1l := a3.length_eq
  obtain ⟨s2, G2, R2, b0, b1, b2, b3, b4, b5⟩ := storeLeftRights_free c lt p vL L1 G1 (R1 ++ Rs) s1 a1 a5 a6
    (by rw [l2]; omega) (fun x y => by have := hD x y; simp; omega) l4
  rw [b0, ok_bind]
  rw [l3] at b1 b2 b4
  rw [l2] at b3
  have r2l := b2.length_eq
  obtain ⟨s3, G3, R3, c0, c1, c2, c3, c4, c5⟩ := storeLeftRights_free c lt p (vR.take 2) (L1 ++ lefts lt p B1) G2 (R2 ++ (R1 ++ Rs)) s2 b1
    (by simpa using b4) b5 (by simp [k2]; omega) (fun x y => by have := hD x y; simp; omega)
    (fun v hv => k4 v (List.mem_of_mem_take hv))
  rw [c0, ok_bind]
  obtain ⟨v0, v1, v2, v3, rfl⟩ : ∃ a b d e, vR = [a, b, d, e] := by
    match vR, k2 with
    | [a, b, d, e], _ => exact ⟨a, b, d, e, rfl⟩
  simp only [List.take_succ_cons, List.take_zero, List.flatten_cons, List.flatten_nil, List.append_nil, List.length_cons,
    List.length_nil] at c1 c2 c3 c4 k3
  simp only [List.drop_succ_cons, List.drop_zero, List.foldlM_cons, List.foldlM_nil]
  have hv2 := k4 v2 (by simp)
  have hv3 := k4 v3 (by simp)
  obtain ⟨r1, G4, X1, d0, d1, d2, d3, d4, d5, d6⟩ := storeRightAndBuf_spec c lt p (L1 ++ lefts lt p B1 ++ lefts lt p (v0 ++ v1)) G3
    (R3 ++ (R2 ++ (R1 ++ Rs))) Ls X v2 ⟨s3.keys, s3.writeL + s3.remaining, Ls ++ X, Ls.length⟩ c1
    (by simp only [List.length_append] at c4 ⊢; omega) rfl rfl (by omega) (by omega) hv2
  have hlr2 := lr_len lt p v2
  have hlr3 := lr_len lt p v3
  rw [d0, ok_bind]
  obtain ⟨r2, G5, X2, e0, e1, e2, e3, e4, e5, e6⟩ := storeRightAndBuf_spec c lt p (L1 ++ lefts lt p B1 ++ lefts lt p (v0 ++ v1)) G4
    (rights lt p v2 ++ (R3 ++ (R2 ++ (R1 ++ Rs)))) (Ls ++ lefts lt p v2) X1 v3 r1 d1 d3 d4 d6 (by omega) (by omega) hv3
  rw [e0, ok_bind]
  refine ⟨s3.writeL, r2, L1 ++ lefts lt p B1 ++ lefts lt p (v0 ++ v1), G5, rights lt p v3 ++ (rights lt p v2 ++ (R3 ++ (R2 ++ R1))), X2,
    lefts lt p v2 ++ lefts lt p v3, rfl, by simp only [List.length_append] at c4 ⊢; omega, e3, by rw [e1]; simp, by rw [e4]; simp, by rw [e6]; simp, ?_, ?_, ?_, ?_⟩
  · simp only [List.length_append]; omega
  · rw [e4]; simp only [List.length_append]; omega
  · rw [← k3, lefts_append, lefts_append, lefts_append, lefts_append, lefts_append]
    refine List.Perm.trans ?_ (List.Perm.trans (List.Perm.append (List.perm_append_comm (l₁ := L1) (l₂ := lefts lt p B1))
      (List.Perm.refl (lefts lt p v0 ++ (lefts lt p v1 ++ (lefts lt p v2 ++ lefts lt p v3))))) ?_)
    · simp
    · rw [List.append_assoc]
      exact List.Perm.append (List.Perm.refl _) (List.Perm.append a2 (by simp [lefts]))
  · rw [← k3, rights_append, rights_append]
    have p1 : (rights lt p v3 ++ (rights lt p v2 ++ (R3 ++ (R2 ++ R1)))).Perm
        ((rights lt p v3 ++ (rights lt p v2 ++ rights lt p (v0 ++ v1))) ++ (rights lt p B1 ++ rights lt p Mid)) := by
      simp only [List.append_assoc]
      exact List.Perm.append (List.Perm.refl _) (List.Perm.append (List.Perm.refl _) (List.Perm.append c2 (List.Perm.append b2 a3)))
    refine p1.trans ?_
    have p2 : (rights lt p v3 ++ (rights lt p v2 ++ rights lt p (v0 ++ v1))).Perm (rights lt p (v0 ++ (v1 ++ (v2 ++ v3)))) := by
      rw [show v0 ++ (v1 ++ (v2 ++ v3)) = (v0 ++ v1) ++ (v2 ++ v3) by simp, rights_append lt p (v0 ++ v1), rights_append lt p v2]
      refine List.Perm.trans (List.Perm.append (List.Perm.refl _) List.perm_append_comm) ?_
      refine List.Perm.trans List.perm_append_comm ?_
      simp
    refine (List.Perm.append p2 (List.Perm.refl _)).trans ?_
    refine List.perm_append_comm.trans ?_
    simp

/-- `Partition` succeeds, keeps the multiset of keys, returns the number of keys not after the pivot, and moves exactly
those to the front. `buf` is scratch space of which `26 * N` keys are required; its contents and what the compress
operations write after the valid lanes do not matter. On targets whose `CompressBlendedStore` rewrites whole vectors,
at least `N` of the keys processed first must go right (see `C19_partition_overrun`). -/
theorem C19_partition (c : Cfg α) (lt : α → α → Bool) (pivot : α) (keys buf : List α) (hN : 0 < c.N)
    (hk : 2 * c.N < keys.length) (hb : 26 * c.N ≤ buf.length)
    (hD : c.isPartition = true ∨ c.rmw = false ∨
      c.N ≤ (keys.drop (keys.length - rightmostNum c.N keys.length)).countP (fun x => lt pivot x)) :
    ∃ bound out buf', partition c lt pivot keys buf = .ok (bound, out, buf') ∧ out.Perm keys ∧ buf'.length = buf.length ∧
      bound = keys.countP (fun x => !lt pivot x) ∧
      (∀ x ∈ out.take bound, lt pivot x = false) ∧ (∀ x ∈ out.drop bound, lt pivot x = true) := by
  obtain ⟨m, Main, G, Ls, Rs, X, h1, h2, h3, h4, h5, h6, h7, h8, h9, h10⟩ := partitionRightmost_spec c lt pivot keys buf hN hk hb
  have hpl := h9.length_eq
  have hpr := h10.length_eq
  have hsum := lr_len lt pivot (keys.drop (m * (4 * c.N)))
  rw [List.length_drop] at hsum
  -- how the pieces give the theorem
  have fin : ∀ (L R : List α), L.Perm (lefts lt pivot keys) → R.Perm (rights lt pivot keys) → ∀ b : List α, b.length = buf.length →
      ∃ bound out buf', (.ok (L.length, L ++ R, b) : M (Nat × List α × List α)) = .ok (bound, out, buf') ∧ out.Perm keys ∧
        buf'.length = buf.length ∧ bound = keys.countP (fun x => !lt pivot x) ∧
        (∀ x ∈ out.take bound, lt pivot x = false) ∧ (∀ x ∈ out.drop bound, lt pivot x = true) := by
    intro L R hL hR b hb'
    refine ⟨_, _, _, rfl, (List.Perm.append hL hR).trans (lefts_rights_perm lt pivot keys), hb', ?_, ?_, ?_⟩
    · rw [hL.length_eq, lefts, ← List.countP_eq_length_filter]
    · rw [List.take_left]
      intro x hx
      have := (hL.mem_iff).mp hx
      simpa [lefts] using (List.mem_filter.mp this).2
    · rw [List.drop_left]
      intro x hx
      have := (hR.mem_iff).mp hx
      simpa [rights] using (List.mem_filter.mp this).2
  have hsplit : keys = keys.take (m * (4 * c.N)) ++ keys.drop (m * (4 * c.N)) := (List.take_append_drop _ _).symm
  unfold partition
  rw [h1, ok_bind]
  simp only []
  rcases h2 with h2 | h2
  · subst h2
    rw [if_pos (by simp), show (pure ((0 : Nat), (⟨Main ++ (G ++ Rs), keys.length - Rs.length, Ls ++ X, Ls.length⟩ : RB α)) :
      M (Nat × RB α)) = .ok (0, ⟨Main ++ (G ++ Rs), keys.length - Rs.length, Ls ++ X, Ls.length⟩) from rfl, ok_bind]
    simp only [Nat.zero_mul] at *
    have hM0 : Main = [] := List.length_eq_zero_iff.mp h3
    subst hM0
    simp only [List.length_nil, Nat.zero_add] at h6
    rw [if_neg (by omega)]
    have e1 := loadU_mid (A := ([] : List α)) (X := Ls) (B := X) (i := 0) (N := Ls.length) rfl rfl
    rw [List.nil_append] at e1
    rw [e1, ok_bind, storeU_mid (A := []) (X := G) (v := Ls) (i := 0) rfl (by omega), ok_bind, List.drop_eq_nil_of_le (by omega)]
    simp only [Nat.zero_add, List.nil_append]
    exact fin Ls Rs (by simpa using h9) (by simpa using h10) (Ls ++ X) h7
  · have hmN : 2 * (4 * c.N) ≤ m * (4 * c.N) := Nat.mul_le_mul_right _ h2
    rw [if_neg (by omega)]
    have hhere : keys.length - rightmostNum c.N keys.length = m * (4 * c.N) := by
      have h11 := h1
      unfold partitionRightmost at h11
      simp only [] at h11
      obtain ⟨g1, g2, g3, m', hm', _⟩ := rightmostNum_spec c.N keys.length hN hk
      rw [if_neg (by omega)] at h11
      revert h11
      generalize rmLoop c lt pivot keys (rightmostNum c.N keys.length) (rightmostNum c.N keys.length + 1) 0 _ = o1
      intro h11
      rcases o1 with e | ⟨j, s⟩
      · cases h11
      rw [ok_bind] at h11
      simp only [] at h11
      revert h11
      generalize rmLast c lt pivot keys _ s = o2
      intro h11
      rcases o2 with e | s2
      · cases h11
      rw [ok_bind] at h11
      revert h11
      generalize Vec.loadU _ s2.buf _ = o3
      intro h11
      rcases o3 with e | v
      · cases h11
      rw [ok_bind] at h11
      revert h11
      generalize Vec.storeU v keys _ = o4
      intro h11
      rcases o4 with e | k4
      · cases h11
      rw [ok_bind] at h11
      injection h11 with h12
      injection h12
    have hD' : c.isPartition = false → c.rmw = true → c.N ≤ Rs.length := by
      intro x y
      rcases hD with h | h | h
      · rw [x] at h; cases h
      · rw [y] at h; cases h
      · rw [hhere] at h
        rw [hpr, rights, ← List.countP_eq_length_filter]; exact h
    simp only [List.length_append] at h7
    obtain ⟨wl, r, A, G', R, X', Lb, e1, e2, e3, e4, e5, e6, e7, e8, e9, e10⟩ := partitionMain_spec c lt pivot m Main G Ls Rs X hN h2 h3
      h5 (by omega) hD'
    rw [show keys.length - Rs.length = Main.length + G.length by omega, e1, ok_bind]
    simp only []
    rw [if_neg (by omega), e4, e5, e6, e2]
    have l1 := loadU_mid (A := ([] : List α)) (X := Ls ++ Lb) (B := X') (i := 0) (N := (Ls ++ Lb).length) rfl rfl
    rw [List.nil_append] at l1
    rw [l1, ok_bind, storeU_mid rfl (by omega), ok_bind, List.drop_eq_nil_of_le (by omega)]
    have hf := fin (A ++ (Ls ++ Lb)) (R ++ Rs) ?_ ?_ (Ls ++ Lb ++ X') (by rw [← e5, e8]; simpa using h7)
    · simp only [List.append_assoc, List.nil_append, List.length_append] at hf ⊢
      exact hf
    · conv_rhs => rw [hsplit]
      rw [lefts_append, ← h4]
      refine List.Perm.trans ?_ (List.Perm.append e9 h9)
      rw [List.append_assoc]
      exact List.Perm.append (List.Perm.refl _) List.perm_append_comm
    · conv_rhs => rw [hsplit]
      rw [rights_append, ← h4]
      exact List.Perm.append e10 h10

/-- Two keys per vector, native compress; `rmw` selects how the blended store works. -/
def cfg2 (rmw : Bool) : Cfg Nat := ⟨2, false, rmw, fun v _ => v, 0⟩

/-- Every `CompressBlendedStore` starts at `writeR - numRight` and, where it rewrites a whole vector, ends after
`keys[num)` when fewer than `N` keys are right of the pivot so far. Contrary to the comment in `PartitionRightmost`
(vqsort-inl.h:646-650), handling `N` keys first does not prevent this: here all 24 keys stay left. -/
theorem C19_partition_overrun :
    partition (cfg2 true) (fun a b => decide (a < b)) 5 (List.replicate 24 3) (List.replicate 52 0) = .error .ub := rfl

/-- The hypotheses of `C19_partition` for both kinds of store, with a main loop and keys on both sides. -/
example : 2 * (cfg2 true).N < ((List.range 29).map (· % 7)).length ∧ 26 * (cfg2 true).N ≤ (List.replicate 52 0).length ∧
    (cfg2 true).N ≤ (((List.range 29).map (· % 7)).drop (29 - rightmostNum 2 29)).countP (fun x => decide (3 < x)) ∧
    2 * 4 * 2 ≤ 29 - rightmostNum 2 29 := by decide

example : (partition (cfg2 true) (fun a b => decide (a < b)) 3 ((List.range 29).map (· % 7)) (List.replicate 52 0)).map
    (fun r => (r.1, r.2.1)) = .ok (17, [1, 2, 3, 0, 1, 0, 1, 2, 3, 0, 2, 3, 0, 3, 0, 1, 2, 6, 4, 5, 6, 4, 5, 5, 6, 4, 6, 4, 5]) := rfl

end VQ
end Hwy
