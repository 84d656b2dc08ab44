import Verif.UnrollerSpec

/-!
# C61, part 2: element-wise units
-/

namespace Hwy
namespace Unroll
open Vec

variable {α α' β X ξ : Type}

/-! ### Specification -/

/-- `[g b l[0], g (b + 1) l[1], …]`. -/
def mapFrom (g : Int → ξ → β) (b : Int) (l : List ξ) : List β := l.mapIdx (fun k a => g (b + k) a)

theorem mapFrom_append (g : Int → ξ → β) (b : Int) (l l' : List ξ) :
    mapFrom g b (l ++ l') = mapFrom g b l ++ mapFrom g (b + l.length) l' := by
  unfold mapFrom
  rw [List.mapIdx_append]
  congr 2
  funext k a
  rw [show b + ((k + l.length : Nat) : Int) = b + l.length + k by push_cast; ring]

@[simp] theorem mapFrom_length (g : Int → ξ → β) (b : Int) (l : List ξ) : (mapFrom g b l).length = l.length := by
  unfold mapFrom; simp

/-! ### The inputs as one list -/

/-- `load` and `maskLoad` give the vectors of `xs`; lanes that are masked off are `fill`. -/
structure Loads (mf : Bool) (view : X → List ξ) (load : Nat → M X) (maskLoad : Int → Int → M X) (xs : List ξ) (fill : ξ)
    (L n : Nat) : Prop where
  load : ∀ i, i + L ≤ n → ∃ x, load i = .ok x ∧ view x = (xs.drop i).take L
  mask : ∀ i, i < n → n < i + L → (mf = true → L ≤ n) →
    ∃ x, maskLoad ((n : Int) - L) ((i : Int) - n) = .ok x ∧
      view x = List.replicate (L - (n - i)) fill ++ (xs.drop i).take (n - i)

theorem loads1 (mf : Bool) (x : List α) (fill : α) {L n : Nat} (hx : n ≤ x.length) :
    Loads mf id (loadU L x) (maskLoadImpl mf L fill x) x fill L n :=
  ⟨fun i hi => ⟨_, loadU_ok _ _ _ (by omega), rfl⟩,
   fun i h1 h2 h3 => ⟨_, maskLoad_neg mf fill h1 h2 hx h3, rfl⟩⟩

def view2 (x : List α × List α') : List (α × α') := x.1.zip x.2

theorem zip_take_drop (x0 : List α) (x1 : List α') (i k : Nat) :
    ((x0.drop i).take k).zip ((x1.drop i).take k) = ((x0.zip x1).drop i).take k := by
  simp only [List.zip]
  rw [List.drop_zipWith, List.take_zipWith]

theorem loads2 (mf : Bool) (x0 : List α) (x1 : List α') (fill0 : α) (fill1 : α') {L n : Nat} (h0 : n ≤ x0.length)
    (h1 : n ≤ x1.length) :
    Loads mf view2 (fun i => do
        let a ← loadU L x0 i
        let b ← loadU L x1 i
        return (a, b))
      (fun idx places => do
        let a ← maskLoadImpl mf L fill0 x0 idx places
        let b ← maskLoadImpl mf L fill1 x1 idx places
        return (a, b)) (x0.zip x1) (fill0, fill1) L n := by
  refine ⟨fun i hi => ⟨((x0.drop i).take L, (x1.drop i).take L), ?_, ?_⟩, fun i h2 h3 h4 => ⟨
    (List.replicate (L - (n - i)) fill0 ++ (x0.drop i).take (n - i), List.replicate (L - (n - i)) fill1 ++ (x1.drop i).take (n - i)),
    ?_, ?_⟩⟩
  · rw [loadU_ok _ _ _ (by omega), loadU_ok _ _ _ (by omega)]; rfl
  · exact zip_take_drop _ _ _ _
  · rw [maskLoad_neg mf fill0 h2 h3 h0 h4, maskLoad_neg mf fill1 h2 h3 h1 h4]; rfl
  · unfold view2
    rw [List.zip_append (by simp), zip_take_drop]
    simp

/-! ### Element-wise units -/

section
variable {mf : Bool} {view : X → List ξ} {load : Nat → M X} {maskLoad : Int → Int → M X} {xs : List ξ} {fill : ξ}
  {L n : Nat} {g : Int → ξ → β} {zero : β} {func : Int → X → List β → List β}

/-- `Func` is lane-wise: lane `j` of `Func(idx, x, y)` depends on `x[j]` and the position `idx + j` only. -/
def LaneWise (view : X → List ξ) (L : Nat) (g : Int → ξ → β) (func : Int → X → List β → List β) : Prop :=
  ∀ idx x y, (view x).length = L → func idx x y = mapFrom g idx (view x)

theorem map_large (hL : 0 < L) (hl : Loads mf view load maskLoad xs fill L n) (hx : n ≤ xs.length)
    (hf : LaneWise view L g func) (hmf : mf = true → L ≤ n) (y : List β) (hy : n ≤ y.length) :
    large (defaultFns mf L zero func) load maskLoad L n y = .ok (mapFrom g 0 (xs.take n) ++ y.drop n) := by
  have step : ∀ i y' a x, i + L ≤ n → view x = (xs.drop i).take L → y' = mapFrom g 0 (xs.take i) ++ y.drop i →
      storeImpl i y' (func i x a) = .ok (mapFrom g 0 (xs.take (i + L)) ++ y.drop (i + L), true) := by
    rintro i _ a x hi hv rfl
    have hlen : (view x).length = L := by rw [hv]; simp; omega
    unfold storeImpl
    rw [hf _ _ _ hlen, Algo.storeU_prefix _ _ _ _ (by simp; omega) (by simp [hlen]; omega)]
    simp only [bind, Except.bind, pure, Except.pure]
    rw [mapFrom_length, hlen, List.take_add, mapFrom_append, hv,
      show (xs.take i).length = i by rw [List.length_take]; omega, Int.zero_add]
  obtain ⟨y', e, hp⟩ := large_spec (defaultFns mf L zero func) load maskLoad L n hL
    (fun i x => view x = (xs.drop i).take L) hl.load (fun y' => y' = mapFrom g 0 (xs.take n) ++ y.drop n)
    (fun i y' _ _ _ _ => y' = mapFrom g 0 (xs.take i) ++ y.drop i)
    (fun i y' _ => y' = mapFrom g 0 (xs.take i) ++ y.drop i) y (by simp [mapFrom]) (by simp [mapFrom])
    (fun i y' a b c d x hi hv hj => ⟨_, true, step i y' a x hi hv hj, fun _ => rfl, by simp⟩)
    (fun i y' a b c d hi hj => hj)
    (fun i y' a x hi hv hj => ⟨_, true, step i y' a x hi hv hj, fun _ => rfl, by simp⟩)
    (by
      rintro i _ a h1 h2 rfl
      unfold finish
      by_cases hc : i = n
      · subst hc
        rw [if_neg (by simp)]
        exact ⟨_, rfl, rfl⟩
      · obtain ⟨x, e, hv⟩ := hl.mask i (by omega) h2 hmf
        have hlen : (view x).length = L := by rw [hv]; simp; omega
        rw [if_pos hc, e]
        have hms := blendedStore_neg mf (v := func ((n : Int) - L) x a) (a := mapFrom g 0 (xs.take i) ++ y.drop i)
          (show i < n by omega) h2 (by rw [hf _ _ _ hlen]; simp [hlen]) (by simp; omega) hmf
        simp only [bind, Except.bind, pure, Except.pure]
        rw [show (defaultFns mf L zero func).maskStore = maskStoreImpl mf L from rfl,
          show (defaultFns mf L zero func).func = func from rfl, hms]
        refine ⟨_, rfl, ?_⟩
        have hml : (mapFrom g 0 (xs.take i)).length = i := by simp; omega
        rw [List.take_left' hml, hf _ _ _ hlen, hv, mapFrom_append, List.drop_left' (by simp)]
        have hti : (xs.take i).length = i := by rw [List.length_take]; omega
        have e2 : xs.take n = xs.take i ++ (xs.drop i).take (n - i) := by
          rw [← List.take_add, show i + (n - i) = n by omega]
        have e3 : (mapFrom g 0 (xs.take i) ++ y.drop i).drop n = y.drop n := by
          rw [List.drop_append, List.drop_eq_nil_of_le (by omega), List.nil_append, List.drop_drop, hml,
            show i + (n - i) = n by omega]
        rw [e3, e2, mapFrom_append, hti, Int.zero_add, List.length_replicate,
          show (n : Int) - L + ((L - (n - i) : Nat) : Int) = i by omega])
  rw [e, hp]

/-- Rule for short arrays: `k` results are copied to `y`. -/
theorem small_spec (f : Fns X β) {k k' : Int} {xx : X} {ytmp r0 r1 y : List β} (ht : ytmp.length = L)
    (h1 : f.maskStore 0 (List.replicate L zero) (f.func 0 xx f.yInit) n = .ok (r0, k))
    (h2 : f.reduce (f.func 0 xx f.yInit) r0 = .ok (r1, k')) (h3 : (k + k').toNat ≤ r1.length)
    (h4 : (k + k').toNat ≤ y.length) :
    small f L L n zero ytmp xx y = .ok (r1.take (k + k').toNat ++ y.drop (k + k').toNat) := by
  unfold small
  rw [if_neg (by simpa using ht)]
  simp only [bind, Except.bind, pure, Except.pure]
  rw [storeU_ok _ _ _ (by simp [ht])]
  simp only [List.take_zero, List.nil_append, List.length_replicate, Nat.zero_add]
  rw [List.drop_eq_nil_of_le (by omega), List.append_nil, h1]
  simp only
  rw [h2]
  simp only
  rw [loadU_ok _ _ _ (by omega)]
  simp only [List.drop_zero]
  rw [storeU_ok _ _ _ (by simp; omega)]
  simp only [List.take_zero, List.nil_append, Nat.zero_add]
  rw [List.length_take, Nat.min_eq_left h3]

theorem map_small (hf : LaneWise view L g func) (hn : n ≤ L) (hx : n ≤ xs.length) {xx : X}
    (hv : view xx = xs.take n ++ List.replicate (L - n) fill) (ytmp y : List β) (ht : ytmp.length = L) (hy : n ≤ y.length) :
    small (defaultFns mf L zero func) L L n zero ytmp xx y = .ok (mapFrom g 0 (xs.take n) ++ y.drop n) := by
  have hlen : (view xx).length = L := by rw [hv]; simp; omega
  have hms := blendedStore_pos mf (v := func 0 xx (List.replicate L zero)) (a := List.replicate L zero) hn
    (by rw [hf _ _ _ hlen]; simp [hlen]) (by simp; omega) (by simp)
  have h := small_spec (n := n) (zero := zero) (defaultFns mf L zero func) (k := n) (k' := 0) (xx := xx) (ytmp := ytmp) (y := y) ht hms rfl
    (by simp; rw [hf _ _ _ hlen]; simp [hlen]; omega) (by simpa using hy)
  rw [h]
  simp only [add_zero, Int.toNat_natCast]
  have hm : (mapFrom g 0 (xs.take n)).length = n := by simp; omega
  rw [List.take_append_of_le_length (by rw [hf _ _ _ hlen]; simp [hlen]; omega), List.take_take, Nat.min_self, hf _ _ _ hlen, hv,
    mapFrom_append, List.take_left' hm]

end

/-- **C61.** `Unroller` with one input and a unit that only defines a lane-wise `Func`: for every array size and number of
lanes, on targets with and without faulting masked accesses, `y[k] = g(k, x[k])` for all `k < n`; nothing beyond `n` is read
or written (`x` and `y` may have exactly `n` elements), whatever the temporary arrays contained. -/
theorem C61_elementwise (mf : Bool) {L maxL n : Nat} (hL : 0 < L) (hmax : mf = true → maxL = L) {g : Int → α → β} {zero : β}
    {func : Int → List α → List β → List β} (hf : LaneWise id L g func) (zeroIn : α) {xtmp : List α} {ytmp : List β}
    (h1 : xtmp.length = maxL) (h2 : ytmp.length = maxL) {x : List α} {y : List β} (hx : n ≤ x.length) (hy : n ≤ y.length) :
    unroller1 mf (defaultFns mf L zero func) (maskLoadImpl mf L zeroIn) maxL L zero xtmp ytmp x y n
      = .ok (mapFrom g 0 (x.take n) ++ y.drop n) := by
  unfold unroller1
  by_cases hc : (mf && decide (n < maxL)) = true
  · rw [if_pos hc]
    simp only [Bool.and_eq_true, decide_eq_true_eq] at hc
    obtain rfl := hmax hc.1
    simp only [bind, Except.bind, pure, Except.pure]
    rw [loadU_ok _ _ _ (by omega)]
    simp only [List.drop_zero]
    rw [storeU_ok _ _ _ (by simp; omega)]
    simp only [List.take_zero, List.nil_append, Nat.zero_add]
    have hl : (x.take n).length = n := by rw [List.length_take]; omega
    rw [maskLoad_pos mf zeroIn hc.2.le (by simp; omega) (by simp; omega)]
    simp only
    rw [List.take_left' hl]
    exact map_small (view := id) (fill := zeroIn) hf hc.2.le hx rfl ytmp y h2 hy
  · rw [if_neg hc]
    refine map_large hL (loads1 mf x zeroIn hx) hx hf (fun h => ?_) y hy
    have := hmax h
    rw [h] at hc
    simp at hc
    omega

/-- **C61.** The same with two inputs. -/
theorem C61_elementwise2 (mf : Bool) {L maxL n : Nat} (hL : 0 < L) (hmax : mf = true → maxL = L) {g : Int → α × α' → β}
    {zero : β} {func : Int → List α × List α' → List β → List β} (hf : LaneWise view2 L g func) (zero0 : α) (zero1 : α')
    {xtmp0 : List α} {xtmp1 : List α'} {ytmp : List β} (h1 : xtmp0.length = maxL) (h1' : xtmp1.length = maxL)
    (h2 : ytmp.length = maxL) {x0 : List α} {x1 : List α'} {y : List β} (hx0 : n ≤ x0.length) (hx1 : n ≤ x1.length)
    (hy : n ≤ y.length) :
    unroller2 mf (defaultFns mf L zero func) (maskLoadImpl mf L zero0) (maskLoadImpl mf L zero1) maxL L zero xtmp0 xtmp1 ytmp
      x0 x1 y n = .ok (mapFrom g 0 ((x0.zip x1).take n) ++ y.drop n) := by
  unfold unroller2
  by_cases hc : (mf && decide (n < L)) = true
  · rw [if_pos hc]
    simp only [Bool.and_eq_true, decide_eq_true_eq] at hc
    obtain rfl := hmax hc.1
    have hl0 : (x0.take n).length = n := by rw [List.length_take]; omega
    have hl1 : (x1.take n).length = n := by rw [List.length_take]; omega
    simp only [bind, Except.bind, pure, Except.pure]
    rw [loadU_ok _ _ _ (by omega), loadU_ok _ _ _ (by omega)]
    simp only [List.drop_zero]
    rw [storeU_ok _ _ _ (by simp; omega), storeU_ok _ _ _ (by simp; omega)]
    simp only [List.take_zero, List.nil_append, Nat.zero_add]
    rw [maskLoad_pos mf zero0 hc.2.le (by simp; omega) (by simp; omega), maskLoad_pos mf zero1 hc.2.le (by simp; omega) (by simp; omega)]
    simp only
    rw [List.take_left' hl0, List.take_left' hl1]
    refine map_small (view := view2) (fill := (zero0, zero1)) hf hc.2.le (by simp; omega) ?_ ytmp y h2 hy
    unfold view2
    rw [List.zip_append (by omega)]
    have := zip_take_drop x0 x1 0 n
    simp only [List.drop_zero] at this
    rw [this]
    simp
  · rw [if_neg hc]
    refine map_large hL (loads2 mf x0 x1 zero0 zero1 hx0 hx1) (by simp; omega) hf (fun h => ?_) y hy
    rw [h] at hc
    simp at hc
    omega

end Unroll
end Hwy
