import Verif.UnrollerSpec2

/-!
# C61, part 3: reductions and searches
-/

namespace Hwy
namespace Unroll
open Vec

variable {α α' β X ξ : Type}

/-! ### Units -/

/-- `op` over all elements. -/
def fold (op : β → β → β) (e : β) (l : List β) : β := l.foldr op e

/-- A reducer: the pattern of `AccumulateUnit`, `MinUnit`, `DotUnit` (unroller_test.cc:185-331): `Func` combines `h` of the
inputs with the accumulator, no stores, `Reduce` combines the lanes. -/
def reducer (op : β → β → β) (e : β) (h : ξ → β) (view : X → List ξ) (L : Nat) : Fns X β where
  func := fun _ x y => List.zipWith (fun a b => op (h a) b) (view x) y
  yInit := List.replicate L e
  store := fun _ t _ => .ok (t, true)
  maskStore := fun _ t _ _ => .ok (t, 0)
  reduce := fun v t => do
    let t ← writeAt t 0 (fold op e v)
    return (t, 1)
  reduce4 := fun x0 x1 x2 y => List.zipWith op (List.zipWith op y x0) (List.zipWith op x1 x2)

/-- `FindUnit` (unroller_test.cc:124-183): `p` compares with the value to find, `w` is the conversion of the index to the
signed lane type, `-1` is the result if there is none. -/
def finder (p : α → Bool) (w : Int → Int) (L : Nat) : Fns (List α) Int where
  func := fun idx x y =>
    match findFirstTrue (x.map p) with
    | some k => List.replicate L (w (idx + k))
    | none => y
  yInit := List.replicate L (-1)
  store := fun _ t v => do
    let a ← readAt v 0
    let t ← writeAt t 0 a
    return (t, decide (a = -1))
  maskStore := fun _ t v _ => do
    let a ← readAt v 0
    let t ← writeAt t 0 a
    return (t, 1)
  reduce := fun _ t => .ok (t, 0)
  reduce4 := fun _ _ _ y => y

/-! ### Reductions -/

section
variable {op : β → β → β} {e : β} [ha : Std.Associative op] [hc : Std.Commutative op] (he : ∀ b, op e b = b)
include he

theorem fold_append (l l' : List β) : fold op e (l ++ l') = op (fold op e l) (fold op e l') := by
  induction l with
  | nil => simp [fold, he]
  | cons a l ih =>
    simp only [fold, List.cons_append, List.foldr_cons] at ih ⊢
    rw [ih, ha.assoc]

theorem fold_replicate (k : Nat) : fold op e (List.replicate k e) = e := by
  induction k with
  | zero => rfl
  | succ k ih =>
    simp only [fold, List.replicate_succ, List.foldr_cons] at ih ⊢
    rw [ih, he]

theorem fold_zip : ∀ u v : List β, u.length = v.length →
    fold op e (List.zipWith op u v) = op (fold op e u) (fold op e v) := by
  intro u
  induction u with
  | nil => intro v h; rw [List.eq_nil_of_length_eq_zero (l := v) (by simpa using h.symm)]; simp [fold, he]
  | cons a u ih =>
    intro v h
    cases v with
    | nil => simp at h
    | cons b v =>
      have := ih v (by simpa using h)
      simp only [fold, List.zipWith_cons_cons, List.foldr_cons] at this ⊢
      rw [this]
      ac_rfl

variable {mf : Bool} {view : X → List ξ} {load : Nat → M X} {maskLoad : Int → Int → M X} {xs : List ξ} {fill : ξ}
  {L n : Nat} {h : ξ → β} {zero : β}

theorem reducer_func {idx : Int} {x : X} {y : List β} (hl : (view x).length = y.length) :
    fold op e ((reducer op e h view L).func idx x y) = op (fold op e ((view x).map h)) (fold op e y) := by
  show fold op e (List.zipWith (fun a b => op (h a) b) (view x) y) = _
  rw [← fold_zip he _ _ (by simpa using hl), List.zipWith_map_left]

theorem reduce_large (hL : 0 < L) (hl : Loads mf view load maskLoad xs fill L n) (hx : n ≤ xs.length)
    (hfill : h fill = e) (hmf : mf = true → L ≤ n) (y : List β) (hy : 1 ≤ y.length) :
    large (reducer op e h view L) load maskLoad L n y = .ok (fold op e ((xs.take n).map h) :: y.drop 1) := by
  have fl : ∀ {i x} {a : List β}, (view x).length = L → a.length = L → ((reducer op e h view L).func i x a).length = L := by
    intro i x a h1 h2
    show (List.zipWith _ _ _).length = L
    simp [h1, h2]
  have nx : ∀ i x, i + L ≤ n → view x = (xs.drop i).take L →
      fold op e ((xs.take (i + L)).map h) = op (fold op e ((xs.take i).map h)) (fold op e ((view x).map h)) := by
    intro i x hi hv
    rw [List.take_add, List.map_append, fold_append he, hv]
  obtain ⟨y', e', hp⟩ := large_spec (reducer op e h view L) load maskLoad L n hL
    (fun i x => view x = (xs.drop i).take L) hl.load (fun y' => y' = fold op e ((xs.take n).map h) :: y.drop 1)
    (fun i y' a b c d => y' = y ∧ a.length = L ∧ b.length = L ∧ c.length = L ∧ d.length = L ∧
      op (op (fold op e a) (fold op e b)) (op (fold op e c) (fold op e d)) = fold op e ((xs.take i).map h))
    (fun i y' a => y' = y ∧ a.length = L ∧ fold op e a = fold op e ((xs.take i).map h)) y
    (by simp only [reducer, List.length_replicate, fold_replicate he, he, List.take_zero, List.map_nil]; simp [fold])
    (by simp only [reducer, List.length_replicate, fold_replicate he, he, List.take_zero, List.map_nil]; simp [fold])
    (by
      rintro i y' a b c d x hi hv ⟨rfl, la, lb, lc, ld, hj⟩
      have hlen : (view x).length = L := by rw [hv]; simp; omega
      refine ⟨y', true, rfl, fun _ => ⟨rfl, lb, lc, ld, fl hlen la, ?_⟩, by simp⟩
      rw [reducer_func he (by omega), nx i x hi hv, ← hj]
      ac_rfl)
    (by
      rintro i y' a b c d hi ⟨rfl, la, lb, lc, ld, hj⟩
      refine ⟨rfl, ?_, ?_⟩
      · simp [reducer, la, lb, lc, ld]
      · show fold op e (List.zipWith op (List.zipWith op a d) (List.zipWith op c b)) = _
        rw [fold_zip he _ _ (by simp; omega), fold_zip he _ _ (by omega), fold_zip he _ _ (by omega), ← hj]
        ac_rfl)
    (by
      rintro i y' a x hi hv ⟨rfl, la, hj⟩
      have hlen : (view x).length = L := by rw [hv]; simp; omega
      refine ⟨y', true, rfl, fun _ => ⟨rfl, fl hlen la, ?_⟩, by simp⟩
      rw [reducer_func he (by omega), nx i x hi hv, ← hj]
      ac_rfl)
    (by
      rintro i y' a h1 h2 ⟨rfl, la, hj⟩
      have wr : ∀ v, writeAt y' 0 v = .ok (v :: y'.drop 1) := by
        intro v
        rw [writeAt_of_lt _ (by omega)]
        cases y' with
        | nil => simp at hy
        | cons b y' => rfl
      unfold finish
      by_cases hc : i = n
      · subst hc
        rw [if_neg (by simp)]
        simp only [reducer, bind, Except.bind, pure, Except.pure, wr]
        exact ⟨_, rfl, by rw [hj]⟩
      · obtain ⟨x, e1, hv⟩ := hl.mask i (by omega) h2 hmf
        have hlen : (view x).length = L := by rw [hv]; simp; omega
        rw [if_pos hc, e1]
        simp only [bind, Except.bind, pure, Except.pure]
        have := reducer_func (op := op) (e := e) (h := h) (L := L) (view := view) he (idx := (n : Int) - L) (x := x) (y := a) (by omega)
        simp only [reducer, bind, Except.bind, pure, Except.pure] at this ⊢
        rw [wr, this]
        refine ⟨_, rfl, ?_⟩
        have e2 : xs.take n = xs.take i ++ (xs.drop i).take (n - i) := by
          rw [← List.take_add, show i + (n - i) = n by omega]
        rw [e2, hv, List.map_append, List.map_append, fold_append he, fold_append he, hj, List.map_replicate, hfill,
          fold_replicate he, he]
        congr 1
        ac_rfl)
  rw [e', hp]

theorem reduce_small (hL : 0 < L) (hn : n ≤ L) (hfill : h fill = e) (hx : n ≤ xs.length) {xx : X}
    (hv : view xx = xs.take n ++ List.replicate (L - n) fill) (ytmp y : List β) (ht : ytmp.length = L) (hy : 1 ≤ y.length) :
    small (reducer op e h view L) L L n zero ytmp xx y = .ok (fold op e ((xs.take n).map h) :: y.drop 1) := by
  have hlen : (view xx).length = L := by rw [hv]; simp; omega
  have hfn := reducer_func (op := op) (e := e) (h := h) (L := L) he (idx := 0) (x := xx) (y := List.replicate L e) (by simpa using hlen)
  have h2 : (reducer op e h view L).reduce ((reducer op e h view L).func 0 xx (List.replicate L e)) (List.replicate L zero)
      = .ok (fold op e ((xs.take n).map h) :: List.replicate (L - 1) zero, 1) := by
    show (do
      let a ← writeAt (List.replicate L zero) 0 (fold op e ((reducer op e h view L).func 0 xx (List.replicate L e)))
      return (a, (1 : Int)) : M (List β × Int)) = _
    rw [writeAt_of_lt _ (by simpa using hL), hfn, hv, fold_replicate he, List.map_append, fold_append he, List.map_replicate,
      hfill, fold_replicate he]
    obtain ⟨L, rfl⟩ : ∃ k, L = k + 1 := ⟨L - 1, by omega⟩
    simp only [List.replicate_succ, List.set_cons_zero, bind, Except.bind, pure, Except.pure]
    rw [show op (op (fold op e ((xs.take n).map h)) e) e = op e (op e (fold op e ((xs.take n).map h))) by ac_rfl, he, he]
    rfl
  rw [small_spec (n := n) (zero := zero) (reducer op e h view L) (k := 0) (k' := 1) (xx := xx) (ytmp := ytmp) (y := y) ht rfl h2
    (by simp) (by simpa using hy)]
  simp

end

/-- **C61.** `Unroller` with one input and a reducer unit whose operation is associative and commutative with identity `e`
(also the initial accumulator), where lanes that are masked off (`fill`) contribute the identity: for every array size
(including 0) and number of lanes, `y[0]` is the combination of `h(x[k])` for all `k < n`, each exactly once, in spite of
unrolling by four; the rest of `y` is unchanged and `x` is not accessed beyond `n`. -/
theorem C61_reduce {op : β → β → β} {e : β} [Std.Associative op] [Std.Commutative op] (he : ∀ b, op e b = b) (mf : Bool)
    {L maxL n : Nat} (hL : 0 < L) (hmax : mf = true → maxL = L) {h : α → β} {zero : β} {fill : α} (hfill : h fill = e)
    {xtmp : List α} {ytmp : List β} (h1 : xtmp.length = maxL) (h2 : ytmp.length = maxL) {x : List α} {y : List β}
    (hx : n ≤ x.length) (hy : 1 ≤ y.length) :
    unroller1 mf (reducer op e h id L) (maskLoadImpl mf L fill) maxL L zero xtmp ytmp x y n
      = .ok (((x.take n).map h).foldr op e :: y.drop 1) := by
  unfold unroller1
  by_cases hc : (mf && decide (n < maxL)) = true
  · rw [if_pos hc]
    simp only [Bool.and_eq_true, decide_eq_true_eq] at hc
    obtain rfl := hmax hc.1
    simp only [bind, Except.bind, pure, Except.pure]
    rw [loadU_ok _ _ _ (by omega)]
    simp only [List.drop_zero]
    rw [storeU_ok _ _ _ (by simp; omega)]
    simp only [List.take_zero, List.nil_append, Nat.zero_add]
    have hl : (x.take n).length = n := by rw [List.length_take]; omega
    rw [maskLoad_pos mf fill hc.2.le (by simp; omega) (by simp; omega)]
    simp only
    rw [List.take_left' hl]
    exact reduce_small (view := id) (fill := fill) he hL hc.2.le hfill hx rfl ytmp y h2 hy
  · rw [if_neg hc]
    refine reduce_large he hL (loads1 mf x fill hx) hx hfill (fun h => ?_) y hy
    have := hmax h
    rw [h] at hc
    simp at hc
    omega

/-- **C61.** The same with two inputs, for instance a dot product. -/
theorem C61_reduce2 {op : β → β → β} {e : β} [Std.Associative op] [Std.Commutative op] (he : ∀ b, op e b = b) (mf : Bool)
    {L maxL n : Nat} (hL : 0 < L) (hmax : mf = true → maxL = L) {h : α × α' → β} {zero : β} {fill0 : α} {fill1 : α'}
    (hfill : h (fill0, fill1) = e) {xtmp0 : List α} {xtmp1 : List α'} {ytmp : List β} (h1 : xtmp0.length = maxL)
    (h1' : xtmp1.length = maxL) (h2 : ytmp.length = maxL) {x0 : List α} {x1 : List α'} {y : List β} (hx0 : n ≤ x0.length)
    (hx1 : n ≤ x1.length) (hy : 1 ≤ y.length) :
    unroller2 mf (reducer op e h view2 L) (maskLoadImpl mf L fill0) (maskLoadImpl mf L fill1) maxL L zero xtmp0 xtmp1 ytmp
      x0 x1 y n = .ok ((((x0.zip x1).take n).map h).foldr op e :: y.drop 1) := by
  unfold unroller2
  by_cases hc : (mf && decide (n < L)) = true
  · rw [if_pos hc]
    simp only [Bool.and_eq_true, decide_eq_true_eq] at hc
    obtain rfl := hmax hc.1
    have hl0 : (x0.take n).length = n := by rw [List.length_take]; omega
    have hl1 : (x1.take n).length = n := by rw [List.length_take]; omega
    simp only [bind, Except.bind, pure, Except.pure]
    rw [loadU_ok _ _ _ (by omega), loadU_ok _ _ _ (by omega)]
    simp only [List.drop_zero]
    rw [storeU_ok _ _ _ (by simp; omega), storeU_ok _ _ _ (by simp; omega)]
    simp only [List.take_zero, List.nil_append, Nat.zero_add]
    rw [maskLoad_pos mf fill0 hc.2.le (by simp; omega) (by simp; omega), maskLoad_pos mf fill1 hc.2.le (by simp; omega) (by simp; omega)]
    simp only
    rw [List.take_left' hl0, List.take_left' hl1]
    refine reduce_small (view := view2) (fill := (fill0, fill1)) he hL hc.2.le hfill (by simp; omega) ?_ ytmp y h2 hy
    unfold view2
    rw [List.zip_append (by omega)]
    have := zip_take_drop x0 x1 0 n
    simp only [List.drop_zero] at this
    rw [this]
    simp
  · rw [if_neg hc]
    refine reduce_large he hL (loads2 mf x0 x1 fill0 fill1 hx0 hx1) (by simp; omega) hfill (fun h => ?_) y hy
    rw [h] at hc
    simp at hc
    omega

/-! ### Searches -/

/-- The answer of a search: the first position, or `-1`. -/
def found : Option Nat → Int
  | some k => k
  | none => -1

section
variable {p : α → Bool} {w : Int → Int} {L n : Nat} {x : List α}

theorem find_pad {fill : α} (hp : p fill = false) (r : Nat) (l : List α) :
    findFirstTrue ((List.replicate r fill ++ l).map p) = (l.findIdx? p).map (· + r) := by
  unfold findFirstTrue
  rw [List.findIdx?_map, Function.id_comp, List.findIdx?_append, List.length_replicate,
    List.findIdx?_eq_none_iff.mpr (by intro a h; rw [List.eq_of_mem_replicate h, hp])]
  rfl

/-- One vector: `m` further elements. -/
theorem find_step (hw : ∀ k : Nat, k < n → w k = k) {fill : α} (hp : p fill = false) {i m : Nat} {idx : Int} {r : Nat}
    {v : List α} (hr : idx + r = i) (hi : i + m ≤ n) (hx : n ≤ x.length) (hno : (x.take i).findIdx? p = none)
    (hv : v = List.replicate r fill ++ (x.drop i).take m) :
    (finder p w L).func idx v (List.replicate L (-1)) = List.replicate L (found ((x.take (i + m)).findIdx? p)) ∧
    (found ((x.take (i + m)).findIdx? p) = -1 ↔ (x.take (i + m)).findIdx? p = none) ∧
    ((x.take (i + m)).findIdx? p ≠ none → (x.take n).findIdx? p = (x.take (i + m)).findIdx? p) := by
  have e1 : (x.take (i + m)).findIdx? p = (((x.drop i).take m).findIdx? p).map (· + i) := by
    rw [List.take_add, List.findIdx?_append, hno, List.length_take, Nat.min_eq_left (by omega)]
    rfl
  refine ⟨?_, ?_, ?_⟩
  · show (match findFirstTrue (v.map p) with
      | some k => List.replicate L (w (idx + k))
      | none => List.replicate L (-1)) = _
    rw [hv, find_pad hp, e1]
    cases h : ((x.drop i).take m).findIdx? p with
    | none => rfl
    | some k =>
      simp only [Option.map_some, found]
      have := (List.findIdx?_eq_some_iff_findIdx_eq.mp h).1
      simp only [List.length_take, List.length_drop] at this
      rw [show idx + ((k + r : Nat) : Int) = ((k + i : Nat) : Int) by push_cast; omega, hw _ (by omega)]
  · cases (x.take (i + m)).findIdx? p with
    | none => simp [found]
    | some k => simp only [found, reduceCtorEq]
  · intro h
    have e2 : x.take n = x.take (i + m) ++ (x.drop (i + m)).take (n - (i + m)) := by
      rw [← List.take_add, show i + m + (n - (i + m)) = n by omega]
    rw [e2, List.findIdx?_append]
    cases h' : (x.take (i + m)).findIdx? p with
    | none => exact absurd h' h
    | some k => rfl

theorem finder_store {L : Nat} (hL : 0 < L) (v : Int) (y : List Int) (hy : 1 ≤ y.length) (i : Nat) :
    (finder p w L).store i y (List.replicate L v) = .ok (v :: y.drop 1, decide (v = -1)) := by
  obtain ⟨L, rfl⟩ : ∃ k, L = k + 1 := ⟨L - 1, by omega⟩
  cases y with
  | nil => simp at hy
  | cons b y => rfl

theorem finder_maskStore {L : Nat} (hL : 0 < L) (v : Int) (y : List Int) (hy : 1 ≤ y.length) (i j : Int) :
    (finder p w L).maskStore i y (List.replicate L v) j = .ok (v :: y.drop 1, 1) := by
  obtain ⟨L, rfl⟩ : ∃ k, L = k + 1 := ⟨L - 1, by omega⟩
  cases y with
  | nil => simp at hy
  | cons b y => rfl

end

/-- **C61.** `Unroller` with a search unit (`FindUnit`): if every index below `n` is representable in the result type and the
lanes that are masked off do not match, then `y[0]` is the first position that matches, or -1; the rest of `y` is unchanged
and `x` is not accessed beyond `n`.  (With no elements nothing is written on targets where masked accesses cannot fault.) -/
theorem C61_find (mf : Bool) {L maxL n : Nat} (hL : 0 < L) (hmax : mf = true → maxL = L) (hn : mf = true ∨ 0 < n)
    {p : α → Bool} {w : Int → Int} (hw : ∀ k : Nat, k < n → w k = k) {fill : α} (hfill : p fill = false)
    {xtmp : List α} {ytmp : List Int} (h1 : xtmp.length = maxL) (h2 : ytmp.length = maxL) {x : List α} {y : List Int}
    (hx : n ≤ x.length) (hy : 1 ≤ y.length) :
    unroller1 mf (finder p w L) (maskLoadImpl mf L fill) maxL L 0 xtmp ytmp x y n
      = .ok ((match (x.take n).findIdx? p with
          | some k => (k : Int)
          | none => -1) :: y.drop 1) := by
  show _ = Except.ok (found ((x.take n).findIdx? p) :: y.drop 1)
  unfold unroller1
  by_cases hc : (mf && decide (n < maxL)) = true
  · rw [if_pos hc]
    simp only [Bool.and_eq_true, decide_eq_true_eq] at hc
    obtain rfl := hmax hc.1
    simp only [bind, Except.bind, pure, Except.pure]
    rw [loadU_ok _ _ _ (by omega)]
    simp only [List.drop_zero]
    rw [storeU_ok _ _ _ (by simp; omega)]
    simp only [List.take_zero, List.nil_append, Nat.zero_add]
    have hl : (x.take n).length = n := by rw [List.length_take]; omega
    rw [maskLoad_pos mf fill hc.2.le (by simp; omega) (by simp; omega)]
    simp only
    rw [List.take_left' hl]
    have hfn : (finder p w maxL).func 0 (x.take n ++ List.replicate (maxL - n) fill) (List.replicate maxL (-1))
        = List.replicate maxL (found ((x.take n).findIdx? p)) := by
      show (match findFirstTrue ((x.take n ++ List.replicate (maxL - n) fill).map p) with
        | some k => List.replicate maxL (w (0 + k))
        | none => List.replicate maxL (-1)) = _
      have e1 : findFirstTrue ((x.take n ++ List.replicate (maxL - n) fill).map p) = (x.take n).findIdx? p := by
        unfold findFirstTrue
        rw [List.findIdx?_map, Function.id_comp, List.findIdx?_append,
          show (List.replicate (maxL - n) fill).findIdx? p = none from List.findIdx?_eq_none_iff.mpr
            (by intro a h; rw [List.eq_of_mem_replicate h, hfill])]
        cases (x.take n).findIdx? p <;> rfl
      rw [e1]
      cases h : (x.take n).findIdx? p with
      | none => rfl
      | some k =>
        have := (List.findIdx?_eq_some_iff_findIdx_eq.mp h).1
        simp only [Int.zero_add, found]
        rw [hw k (by omega)]
    rw [small_spec (n := n) (zero := 0) (finder p w maxL) (k := 1) (k' := 0) (ytmp := ytmp) (y := y) h2
      (by rw [show (finder p w maxL).yInit = List.replicate maxL (-1) from rfl, hfn]
          exact finder_maskStore hL _ _ (by simp; omega) _ _) rfl (by simp) (by simpa using hy)]
    simp
  · rw [if_neg hc]
    have hmf : mf = true → L ≤ n := by
      intro h
      have := hmax h
      rw [h] at hc
      simp at hc
      omega
    have hpos : 0 < n := by
      rcases hn with h | h
      · have := hmf h; omega
      · exact h
    have hl := loads1 mf x fill (L := L) hx
    have tailY : ∀ {i : Nat} {y' : List Int}, (i = 0 → y' = y) → (0 < i → y' = -1 :: y.drop 1) → y'.length = y.length ∧
        y'.drop 1 = y.drop 1 := by
      intro i y' a b
      rcases Nat.eq_zero_or_pos i with h | h
      · rw [a h]; exact ⟨rfl, rfl⟩
      · rw [b h]; refine ⟨?_, rfl⟩; simp; omega
    have step : ∀ i y' a v, i + L ≤ n → id v = (x.drop i).take L →
        ((x.take i).findIdx? p = none ∧ a = List.replicate L (-1) ∧ (i = 0 → y' = y) ∧ (0 < i → y' = -1 :: y.drop 1)) →
        ∃ y'' g, (finder p w L).store i y' ((finder p w L).func i v a) = .ok (y'', g) ∧
          (g = true → (x.take (i + L)).findIdx? p = none ∧ (finder p w L).func i v a = List.replicate L (-1) ∧
            (i + L = 0 → y'' = y) ∧ (0 < i + L → y'' = -1 :: y.drop 1)) ∧
          (g = false → y'' = found ((x.take n).findIdx? p) :: y.drop 1) := by
      rintro i y' a v hi hv ⟨hno, rfl, hy0, hy1⟩
      obtain ⟨t1, t2⟩ := tailY hy0 hy1
      obtain ⟨s1, s2, s3⟩ := find_step (L := L) hw hfill (i := i) (m := L) (idx := i) (r := 0) (v := v) (by simp) hi hx hno
        (by simpa using hv)
      rw [s1, finder_store hL _ _ (by omega), t2]
      refine ⟨_, _, rfl, fun hg => ?_, fun hg => ?_⟩
      · have hg := of_decide_eq_true hg
        exact ⟨s2.mp hg, by rw [hg], by omega, fun _ => by rw [hg]⟩
      · have hg := of_decide_eq_false hg
        rw [s3 (fun h => hg (s2.mpr h))]
    obtain ⟨y', e', hp⟩ := large_spec (finder p w L) (loadU L x) (maskLoadImpl mf L fill x) L n hL
      (fun i v => id v = (x.drop i).take L) hl.load (fun y' => y' = found ((x.take n).findIdx? p) :: y.drop 1)
      (fun i y' a b c d => ((x.take i).findIdx? p = none ∧ a = List.replicate L (-1) ∧ (i = 0 → y' = y) ∧
        (0 < i → y' = -1 :: y.drop 1)) ∧ b = List.replicate L (-1) ∧ c = List.replicate L (-1) ∧ d = List.replicate L (-1))
      (fun i y' a => (x.take i).findIdx? p = none ∧ a = List.replicate L (-1) ∧ (i = 0 → y' = y) ∧
        (0 < i → y' = -1 :: y.drop 1)) y
      ⟨⟨rfl, rfl, fun _ => rfl, by omega⟩, rfl, rfl, rfl⟩ ⟨rfl, rfl, fun _ => rfl, by omega⟩
      (by
        rintro i y' a b c d v hi hv ⟨hj, rfl, rfl, rfl⟩
        obtain ⟨y'', g, q1, q2, q3⟩ := step i y' a v hi hv hj
        refine ⟨y'', g, q1, fun hg => ?_, q3⟩
        obtain ⟨r1, r2, r3, r4⟩ := q2 hg
        exact ⟨⟨r1, rfl, r3, r4⟩, rfl, rfl, r2⟩)
      (by rintro i y' a b c d hi ⟨hj, _⟩; exact hj)
      step
      (by
        rintro i y' a g1 g2 ⟨hno, rfl, hy0, hy1⟩
        obtain ⟨t1, t2⟩ := tailY hy0 hy1
        unfold finish
        by_cases hi : i = n
        · subst hi
          rw [if_neg (by simp)]
          exact ⟨_, rfl, by rw [hy1 hpos, hno]; rfl⟩
        · obtain ⟨v, e1, hv⟩ := hl.mask i (by omega) g2 hmf
          obtain ⟨s1, s2, s3⟩ := find_step (L := L) hw hfill (i := i) (m := n - i) (idx := (n : Int) - L) (r := L - (n - i)) (v := v)
            (by omega) (by omega) hx hno hv
          rw [show i + (n - i) = n by omega] at s1
          rw [if_pos hi, e1]
          simp only [bind, Except.bind, pure, Except.pure]
          rw [s1, finder_maskStore hL _ _ (by omega), t2]
          exact ⟨_, rfl, rfl⟩)
    rw [e', hp]

end Unroll
end Hwy
