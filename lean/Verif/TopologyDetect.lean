import Verif.TopologySpec
import Mathlib.Data.List.Nodup
import Mathlib.Data.List.Range
import Mathlib.Tactic.Linarith

/-!
# C43: consistency of the detected topology
-/

namespace Hwy
namespace Topo

theorem read_ok {α : Type} {a : List α} {i : Nat} {x : α} (h : readAt a i = .ok x) : a[i]? = some x := by
  unfold readAt at h
  split at h
  · rename_i y hy
    cases h
    exact hy
  · cases h

theorem write_ok {α : Type} {a b : List α} {i : Nat} {x : α} (h : writeAt a i x = .ok b) : i < a.length ∧ b = a.set i x := by
  unfold writeAt at h
  split at h
  · rename_i hi
    cases h
    exact ⟨hi, rfl⟩
  · cases h

/-! ### Remapper -/

/-- `ids` are the identifiers seen so far in order of their first occurrence. -/
structure RInv (r : Remapper) (ids : List Nat) : Prop where
  nodup : ids.Nodup
  num : r.num = ids.length
  ind : r.indices = ids.zipIdx

theorem lookup_zipIdx (x : Nat) : ∀ (ids : List Nat) (k : Nat),
    (∀ i, (ids.zipIdx k).lookup x = some i → k ≤ i ∧ ids[i - k]? = some x) ∧
    ((ids.zipIdx k).lookup x = none → x ∉ ids)
  | [], k => by simp
  | y :: ids, k => by
    have ih := lookup_zipIdx x ids (k + 1)
    rw [List.zipIdx_cons, List.lookup_cons]
    by_cases h : x = y
    · subst h
      simp
    · have hb : (x == y) = false := by simpa using h
      rw [hb]
      simp only
      refine ⟨?_, ?_⟩
      · intro i hi
        obtain ⟨h1, h2⟩ := ih.1 i hi
        refine ⟨by omega, ?_⟩
        have : i - k = (i - (k + 1)) + 1 := by omega
        rw [this, List.getElem?_cons_succ]
        exact h2
      · intro hn
        have := ih.2 hn
        simp [h, this]

theorem call_none {r : Remapper} {fs : Sysfs} {key : Key} {lp maxT : Nat} (h : r.call fs key lp maxT = .ok none) :
    readNumber fs key lp = .ok none := by
  unfold Remapper.call at h
  obtain ⟨o, h1, h2⟩ := bind_ok h
  cases o with
  | none => exact h1
  | some id =>
    simp only at h2
    cases hl : r.indices.lookup id with
    | some i =>
      rw [hl] at h2
      simp only at h2
      by_cases g1 : r.num ≤ i
      · rw [if_pos g1] at h2; cases h2
      · rw [if_neg g1] at h2
        by_cases g2 : maxT ≤ i
        · rw [if_pos g2] at h2; cases h2
        · rw [if_neg g2] at h2; cases h2
    | none =>
      rw [hl] at h2
      simp only at h2
      rw [if_neg (by omega)] at h2
      by_cases g2 : maxT ≤ r.num
      · rw [if_pos g2] at h2; cases h2
      · rw [if_neg g2] at h2; cases h2

theorem call_some {r r' : Remapper} {fs : Sysfs} {key : Key} {lp maxT index : Nat} {ids : List Nat} (hr : RInv r ids)
    (h : r.call fs key lp maxT = .ok (some (r', index))) :
    ∃ id ids', readNumber fs key lp = .ok (some id) ∧ RInv r' ids' ∧ ids <+: ids' ∧ ids'[index]? = some id ∧ index < maxT ∧
      (∀ k, k < ids'.length → k < ids.length ∨ k = index) := by
  unfold Remapper.call at h
  obtain ⟨o, h1, h2⟩ := bind_ok h
  cases o with
  | none => cases h2
  | some id =>
    obtain ⟨l1, l2⟩ := lookup_zipIdx id ids 0
    rw [← hr.ind] at l1 l2
    simp only at h2
    cases hl : r.indices.lookup id with
    | some i =>
      rw [hl] at h2
      simp only at h2
      obtain ⟨_, l3⟩ := l1 i hl
      by_cases g1 : r.num ≤ i
      · rw [if_pos g1] at h2; cases h2
      · rw [if_neg g1] at h2
        by_cases g2 : maxT ≤ i
        · rw [if_pos g2] at h2; cases h2
        · rw [if_neg g2] at h2
          cases h2
          exact ⟨id, ids, h1, hr, List.prefix_refl _, by simpa using l3, by omega, fun k hk => Or.inl hk⟩
    | none =>
      rw [hl] at h2
      simp only at h2
      have l3 := l2 hl
      rw [if_neg (by omega)] at h2
      by_cases g2 : maxT ≤ r.num
      · rw [if_pos g2] at h2; cases h2
      · rw [if_neg g2] at h2
        cases h2
        refine ⟨id, ids ++ [id], h1, ⟨?_, ?_, ?_⟩, List.prefix_append _ _, ?_, by omega, ?_⟩
        · rw [List.nodup_append]
          refine ⟨hr.nodup, by simp, ?_⟩
          intro a ha b hb
          simp at hb
          subst hb
          intro e
          subst e
          exact l3 ha
        · simp [hr.num]
        · simp [hr.ind, hr.num, List.zipIdx_append]
        · rw [hr.num]; simp
        · intro k hk
          simp at hk
          rw [hr.num]
          omega

theorem prefix_get {ids ids' : List Nat} (h : ids <+: ids') {k x : Nat} (hk : ids[k]? = some x) : ids'[k]? = some x := by
  obtain ⟨t, rfl⟩ := h
  have : k < ids.length := (List.getElem?_eq_some_iff.mp hk).1
  rw [List.getElem?_append_left this]
  exact hk

theorem nodup_idx {ids : List Nat} (h : ids.Nodup) {i j x : Nat} (hi : ids[i]? = some x) (hj : ids[j]? = some x) : i = j := by
  obtain ⟨h1, e1⟩ := List.getElem?_eq_some_iff.mp hi
  obtain ⟨h2, e2⟩ := List.getElem?_eq_some_iff.mp hj
  exact (List.Nodup.getElem_inj_iff h).mp (e1.trans e2.symm)

/-! ### First loop -/

/-- The entry of a logical processor. -/
def lpAt (lps : List LP) (i : Nat) : LP := lps.getD i {}

theorem lpAt_of_get {lps : List LP} {i : Nat} {l : LP} (h : lps[i]? = some l) : lpAt lps i = l := by
  simp [lpAt, List.getD, h]

theorem lpAt_set {lps : List LP} {i : Nat} (h : i < lps.length) (l : LP) (j : Nat) :
    lpAt (lps.set i l) j = if j = i then l else lpAt lps j := by
  unfold lpAt List.getD
  by_cases e : j = i
  · subst e; simp [h]
  · rw [List.getElem?_set_ne (by omega), if_neg e]

structure Inv1 (fs : Sysfs) (n total : Nat) (packages : Remapper) (lps : List LP) (ids : List Nat) : Prop where
  len : lps.length = total
  r : RInv packages ids
  id : ∀ i, i < n → ∃ x, readNumber fs .package i = .ok (some x) ∧ ids[(lpAt lps i).package]? = some x
  onto : ∀ k, k < ids.length → ∃ i, i < n ∧ (lpAt lps i).package = k

theorem detect1_inv (fs : Sysfs) (total : Nat) : ∀ (todo lp : Nat) (packages : Remapper) (lps : List LP) (ids : List Nat)
    (packages' : Remapper) (lps' : List LP), Inv1 fs lp total packages lps ids →
    detect1 fs todo lp packages lps = .ok (some (packages', lps')) →
    ∃ ids', Inv1 fs (lp + todo) total packages' lps' ids'
  | 0, lp, packages, lps, ids, packages', lps', inv, h => by
    simp only [detect1, Except.ok.injEq, Option.some.injEq, Prod.mk.injEq] at h
    obtain ⟨rfl, rfl⟩ := h
    exact ⟨ids, inv⟩
  | todo + 1, lp, packages, lps, ids, packages', lps', inv, h => by
    unfold detect1 at h
    obtain ⟨o, h1, h⟩ := bind_ok h
    cases o with
    | none => cases h
    | some o =>
      obtain ⟨r1, index⟩ := o
      simp only at h
      obtain ⟨l, h2, h⟩ := bind_ok h
      obtain ⟨lps1, h3, h⟩ := bind_ok h
      obtain ⟨hlt, rfl⟩ := write_ok h3
      obtain ⟨x, ids1, c1, c2, c3, c4, c5, c6⟩ := call_some inv.r h1
      have inv1 : Inv1 fs (lp + 1) total r1 (lps.set lp { l with package := index }) ids1 := by
        refine ⟨by simp [inv.len], c2, ?_, ?_⟩
        · intro i hi
          rw [lpAt_set hlt]
          by_cases e : i = lp
          · subst e
            rw [if_pos rfl]
            exact ⟨x, c1, c4⟩
          · rw [if_neg e]
            obtain ⟨y, g1, g2⟩ := inv.id i (by omega)
            exact ⟨y, g1, prefix_get c3 g2⟩
        · intro k hk
          rcases c6 k hk with g | g
          · obtain ⟨i, hi, e⟩ := inv.onto k g
            refine ⟨i, by omega, ?_⟩
            rw [lpAt_set hlt, if_neg (by omega)]
            exact e
          · refine ⟨lp, by omega, ?_⟩
            rw [lpAt_set hlt, if_pos rfl]
            exact g.symm
      obtain ⟨ids', e⟩ := detect1_inv fs total todo (lp + 1) r1 _ ids1 packages' lps' inv1 h
      exact ⟨ids', by rw [show lp + (todo + 1) = lp + 1 + todo by omega]; exact e⟩

/-! ### Second loop -/

/-- Number of processors before `n` in the given package and core. -/
def smtCount (lps : List LP) (n p c : Nat) : Nat :=
  ((List.range n).filter (fun j => (lpAt lps j).package = p ∧ (lpAt lps j).core = c)).length

theorem smtCount_succ (lps : List LP) (n p c : Nat) :
    smtCount lps (n + 1) p c = smtCount lps n p c + if (lpAt lps n).package = p ∧ (lpAt lps n).core = c then 1 else 0 := by
  unfold smtCount
  rw [List.range_succ, List.filter_append, List.length_append]
  congr 1
  by_cases h : (lpAt lps n).package = p ∧ (lpAt lps n).core = c
  · simp [h]
  · rw [if_neg h]
    simp only [List.filter_cons, List.filter_nil]
    simp [h]

theorem smtCount_congr (lps lps' : List LP) (n p c : Nat) (h : ∀ i, i < n → lpAt lps' i = lpAt lps i) :
    smtCount lps' n p c = smtCount lps n p c := by
  unfold smtCount
  congr 1
  apply List.filter_congr
  intro i hi
  rw [h i (List.mem_range.mp hi)]

structure Inv2 (fs : Sysfs) (n p : Nat) (pp : PerPackage) (lps : List LP) (cids kids : List Nat) : Prop where
  cores : RInv pp.cores cids
  clusters : RInv pp.clusters kids
  core : ∀ i, i < n → (lpAt lps i).package = p →
    ∃ x, readNumber fs .core i = .ok (some x) ∧ cids[(lpAt lps i).core]? = some x
  cluster : ∀ i, i < n → (lpAt lps i).package = p →
    (readNumber fs .cluster i = .ok none ∧ (lpAt lps i).cluster = 0) ∨
    ∃ x, readNumber fs .cluster i = .ok (some x) ∧ kids[(lpAt lps i).cluster]? = some x
  coreOnto : ∀ k, k < cids.length → ∃ i, i < n ∧ (lpAt lps i).package = p ∧ (lpAt lps i).core = k
  clusterOnto : ∀ k, k < kids.length → ∃ i, i < n ∧ (lpAt lps i).package = p ∧ (lpAt lps i).cluster = k ∧
    readNumber fs .cluster i = .ok kids[k]?
  per : ∀ c, c < kMaxLogicalProcessors → pp.smtPerCore[c]? = some (smtCount lps n p c)
  le16 : ∀ c, smtCount lps n p c ≤ 16
  smt : ∀ i, i < n → (lpAt lps i).package = p → (lpAt lps i).smt = smtCount lps i p (lpAt lps i).core

/-- A processor of another package. -/
theorem Inv2.other {fs : Sysfs} {n p : Nat} {pp : PerPackage} {lps lps' : List LP} {cids kids : List Nat}
    (h : Inv2 fs n p pp lps cids kids) (hs : ∀ i, i < n → lpAt lps' i = lpAt lps i) (hp : (lpAt lps' n).package ≠ p) :
    Inv2 fs (n + 1) p pp lps' cids kids where
  cores := h.cores
  clusters := h.clusters
  core i hi e := by
    have hin : i < n := by
      by_contra hc
      have : i = n := by omega
      subst this
      exact hp e
    rw [hs i hin] at e ⊢
    exact h.core i hin e
  cluster i hi e := by
    have hin : i < n := by
      by_contra hc
      have : i = n := by omega
      subst this
      exact hp e
    rw [hs i hin] at e ⊢
    exact h.cluster i hin e
  coreOnto k hk := by
    obtain ⟨i, h1, h2⟩ := h.coreOnto k hk
    refine ⟨i, by omega, ?_⟩
    rw [hs i h1]
    exact h2
  clusterOnto k hk := by
    obtain ⟨i, h1, h2⟩ := h.clusterOnto k hk
    refine ⟨i, by omega, ?_⟩
    rw [hs i h1]
    exact h2
  per c hc := by
    rw [smtCount_succ, if_neg (by tauto), smtCount_congr lps lps' n p c hs]
    exact h.per c hc
  le16 c := by
    rw [smtCount_succ, if_neg (by tauto), smtCount_congr lps lps' n p c hs]
    exact h.le16 c
  smt i hi e := by
    have hin : i < n := by
      by_contra hc
      have : i = n := by omega
      subst this
      exact hp e
    rw [smtCount_congr lps lps' i p _ (fun j hj => hs j (by omega)), hs i hin]
    rw [hs i hin] at e
    exact h.smt i hin e

theorem clusterOf_inv {fs : Sysfs} {pp pp' : PerPackage} {lp cluster : Nat} {kids : List Nat} (hr : RInv pp.clusters kids)
    (h : clusterOf fs pp lp = .ok (pp', cluster)) :
    ∃ kids', RInv pp'.clusters kids' ∧ kids <+: kids' ∧ pp'.cores = pp.cores ∧ pp'.smtPerCore = pp.smtPerCore ∧
      ((readNumber fs .cluster lp = .ok none ∧ cluster = 0) ∨
        ∃ x, readNumber fs .cluster lp = .ok (some x) ∧ kids'[cluster]? = some x) ∧
      (∀ k, k < kids'.length → k < kids.length ∨ (k = cluster ∧ readNumber fs .cluster lp = .ok kids'[k]?)) := by
  unfold clusterOf at h
  obtain ⟨o, h1, h⟩ := bind_ok h
  cases o with
  | none =>
    cases h
    exact ⟨kids, hr, List.prefix_refl _, rfl, rfl, Or.inl ⟨call_none h1, rfl⟩, fun k hk => Or.inl hk⟩
  | some o =>
    obtain ⟨r1, index⟩ := o
    cases h
    obtain ⟨x, kids', c1, c2, c3, c4, _, c6⟩ := call_some hr h1
    refine ⟨kids', c2, c3, rfl, rfl, Or.inr ⟨x, c1, c4⟩, fun k hk => ?_⟩
    rcases c6 k hk with g | g
    · exact Or.inl g
    · exact Or.inr ⟨g, by rw [g, c1, c4]⟩

/-- State after the second loop has handled `n` processors. -/
structure State2 (fs : Sysfs) (n total : Nat) (lps0 : List LP) (pps : List PerPackage) (lps : List LP)
    (ids2 : Nat → List Nat × List Nat) : Prop where
  len : lps.length = total
  same : ∀ i, (lpAt lps i).package = (lpAt lps0 i).package
  inv : ∀ p pp, pps[p]? = some pp → Inv2 fs n p pp lps (ids2 p).1 (ids2 p).2

theorem detect2_inv (fs : Sysfs) (total : Nat) (lps0 : List LP) : ∀ (todo lp : Nat) (pps : List PerPackage) (lps : List LP)
    (ids2 : Nat → List Nat × List Nat) (pps' : List PerPackage) (lps' : List LP),
    State2 fs lp total lps0 pps lps ids2 → detect2 fs todo lp pps lps = .ok (some (pps', lps')) →
    ∃ ids2', State2 fs (lp + todo) total lps0 pps' lps' ids2' ∧ pps'.length = pps.length
  | 0, lp, pps, lps, ids2, pps', lps', st, h => by
    simp only [detect2, Except.ok.injEq, Option.some.injEq, Prod.mk.injEq] at h
    obtain ⟨rfl, rfl⟩ := h
    exact ⟨ids2, st, rfl⟩
  | todo + 1, lp, pps, lps, ids2, pps', lps', st, h => by
    unfold detect2 at h
    obtain ⟨l, h1, h⟩ := bind_ok h
    obtain ⟨pp, h2, h⟩ := bind_ok h
    obtain ⟨⟨pp1, cluster⟩, h3, h⟩ := bind_ok h
    simp only at h
    obtain ⟨o, h4, h⟩ := bind_ok h
    cases o with
    | none => cases h
    | some o =>
    obtain ⟨r1, core⟩ := o
    simp only at h
    by_cases hc : kMaxLogicalProcessors ≤ core
    · rw [if_pos hc] at h; cases h
    rw [if_neg hc] at h
    obtain ⟨smt, h5, h⟩ := bind_ok h
    obtain ⟨spc, h6, h⟩ := bind_ok h
    by_cases h16 : 16 ≤ smt
    · rw [if_pos h16] at h; cases h
    rw [if_neg h16] at h
    obtain ⟨pps1, h7, h⟩ := bind_ok h
    obtain ⟨lps1, h8, h⟩ := bind_ok h
    obtain ⟨w1, rfl⟩ := write_ok h6
    obtain ⟨w2, rfl⟩ := write_ok h7
    obtain ⟨w3, rfl⟩ := write_ok h8
    have g1 := read_ok h1
    have g2 := read_ok h2
    have g5 := read_ok h5
    have inv := st.inv _ pp g2
    obtain ⟨kids', k1, k2, k3, k4, k5, k6⟩ := clusterOf_inv inv.clusters h3
    obtain ⟨x, cids', c1, c2, c3, c4, _, c6⟩ := call_some (ids := (ids2 l.package).1) (by rw [k3]; exact inv.cores) h4
    have hl : lpAt lps lp = l := lpAt_of_get g1
    have hat := lpAt_set w3 { l with cluster := cluster, core := core, smt := smt }
    have hsame : ∀ i, i < lp → lpAt (lps.set lp { l with cluster := cluster, core := core, smt := smt }) i = lpAt lps i := by
      intro i hi
      rw [hat, if_neg (by omega)]
    have hn : lpAt (lps.set lp { l with cluster := cluster, core := core, smt := smt }) lp =
        { l with cluster := cluster, core := core, smt := smt } := by rw [hat, if_pos rfl]
    have hcount : smt = smtCount lps lp l.package core := by
      have := inv.per core (by omega)
      rw [k4, this] at g5
      exact (Option.some.inj g5).symm
    have st1 : State2 fs (lp + 1) total lps0 (pps.set l.package { pp1 with cores := r1, smtPerCore := pp1.smtPerCore.set core ((smt + 1) % 256) })
        (lps.set lp { l with cluster := cluster, core := core, smt := smt })
        (fun p => if p = l.package then (cids', kids') else ids2 p) := by
      refine ⟨by simp [st.len], ?_, ?_⟩
      · intro i
        rw [hat]
        by_cases e : i = lp
        · subst e
          rw [if_pos rfl, ← st.same, hl]
        · rw [if_neg e, st.same]
      · intro p q hq
        by_cases e : p = l.package
        · subst e
          rw [if_pos rfl]
          rw [List.getElem?_set_self w2] at hq
          cases hq
          exact {
            cores := c2
            clusters := k1
            core := by
              intro i hi e
              by_cases e' : i = lp
              · subst e'
                rw [hn]
                exact ⟨x, c1, c4⟩
              · rw [hsame i (by omega)] at e ⊢
                obtain ⟨y, y1, y2⟩ := inv.core i (by omega) e
                exact ⟨y, y1, prefix_get c3 y2⟩
            cluster := by
              intro i hi e
              by_cases e' : i = lp
              · subst e'
                rw [hn]
                exact k5
              · rw [hsame i (by omega)] at e ⊢
                rcases inv.cluster i (by omega) e with y | ⟨y, y1, y2⟩
                · exact Or.inl y
                · exact Or.inr ⟨y, y1, prefix_get k2 y2⟩
            coreOnto := by
              intro k hk
              rcases c6 k hk with y | y
              · obtain ⟨i, i1, i2⟩ := inv.coreOnto k y
                exact ⟨i, by omega, by rw [hsame i i1]; exact i2⟩
              · exact ⟨lp, by omega, by rw [hn]; exact ⟨rfl, y.symm⟩⟩
            clusterOnto := by
              intro k hk
              rcases k6 k hk with y | y
              · obtain ⟨i, i1, i2, i3, i4⟩ := inv.clusterOnto k y
                refine ⟨i, by omega, by rw [hsame i i1]; exact i2, by rw [hsame i i1]; exact i3, ?_⟩
                rw [i4, prefix_get k2 (List.getElem?_eq_getElem y)]
                exact congrArg Except.ok (List.getElem?_eq_getElem y)
              · exact ⟨lp, by omega, by rw [hn], by rw [hn]; exact y.1.symm, y.2⟩
            per := by
              intro c hc'
              rw [smtCount_succ, smtCount_congr lps _ lp _ _ hsame, hn]
              by_cases e : c = core
              · subst e
                rw [if_pos ⟨rfl, rfl⟩, List.getElem?_set_self w1, ← hcount, Nat.mod_eq_of_lt (by omega)]
              · rw [if_neg (by simp; omega), List.getElem?_set_ne (by omega), k4]
                exact inv.per c hc'
            le16 := by
              intro c
              rw [smtCount_succ, smtCount_congr lps _ lp _ _ hsame, hn]
              by_cases e : c = core
              · subst e
                rw [if_pos ⟨rfl, rfl⟩, ← hcount]
                omega
              · rw [if_neg (by simp; omega)]
                exact inv.le16 c
            smt := by
              intro i hi e
              rw [smtCount_congr lps _ i _ _ (fun j hj => hsame j (by omega))]
              by_cases e' : i = lp
              · subst e'
                rw [hn]
                exact hcount
              · rw [hsame i (by omega)] at e ⊢
                exact inv.smt i (by omega) e }
        · rw [if_neg e]
          rw [List.getElem?_set_ne (by omega)] at hq
          exact (st.inv p q hq).other hsame (by rw [hn]; exact fun e' => e e'.symm)
    obtain ⟨ids2', e1, e2⟩ := detect2_inv fs total lps0 todo (lp + 1) _ _ _ pps' lps' st1 h
    refine ⟨ids2', by rw [show lp + (todo + 1) = lp + 1 + todo by omega]; exact e1, by rw [e2]; simp⟩

/-! ### Nodes, sets and caches -/

theorem packageSizes_inv : ∀ (pps : List PerPackage) (sizes : List PackageSizes), packageSizes pps = .ok sizes →
    sizes.length = pps.length ∧ ∀ (p : Nat) (pp : PerPackage), pps[p]? = some pp →
      sizes[p]? = some ⟨max 1 pp.clusters.num, pp.cores.num⟩
  | [], sizes, h => by
    cases h
    simp
  | pp :: pps, sizes, h => by
    unfold packageSizes at h
    by_cases h0 : pp.cores.num = 0
    · rw [if_pos h0] at h; cases h
    · rw [if_neg h0] at h
      obtain ⟨rest, h1, h⟩ := bind_ok h
      cases h
      obtain ⟨e1, e2⟩ := packageSizes_inv pps rest h1
      refine ⟨by simp [e1], ?_⟩
      intro p q hq
      cases p with
      | zero => simp at hq; subst hq; simp
      | succ p => simp at hq; simpa using e2 p q hq

/-- Everything but the node. -/
def SameButNode (a b : List LP) : Prop :=
  a.length = b.length ∧ ∀ i, { lpAt a i with node := 0 } = { lpAt b i with node := 0 }

theorem SameButNode.trans {a b c : List LP} (h1 : SameButNode a b) (h2 : SameButNode b c) : SameButNode a c :=
  ⟨h1.1.trans h2.1, fun i => (h1.2 i).trans (h2.2 i)⟩

theorem setNode_inv (node : Nat) : ∀ (list : List Nat) (lps lps' : List LP), setNode node list lps = .ok lps' →
    SameButNode lps' lps ∧ ∀ i, (lpAt lps' i).node = if i ∈ list then node % 256 else (lpAt lps i).node
  | [], lps, lps', h => by
    cases h
    exact ⟨⟨rfl, fun _ => rfl⟩, by simp⟩
  | lp :: list, lps, lps', h => by
    unfold setNode at h
    obtain ⟨l, h1, h⟩ := bind_ok h
    obtain ⟨lps1, h2, h⟩ := bind_ok h
    obtain ⟨w, rfl⟩ := write_ok h2
    have hl := lpAt_of_get (read_ok h1)
    obtain ⟨e1, e2⟩ := setNode_inv node list _ lps' h
    refine ⟨e1.trans ⟨by simp, ?_⟩, ?_⟩
    · intro i
      rw [lpAt_set w]
      by_cases e : i = lp
      · subst e; rw [if_pos rfl, hl]
      · rw [if_neg e]
    · intro i
      rw [e2, lpAt_set w]
      by_cases e : i = lp
      · subst e; simp
      · rw [if_neg e]; simp [e]

theorem setNodes_inv (riscv : Bool) (fs : Sysfs) : ∀ (fuel node : Nat) (lps lps' : List LP),
    setNodes riscv fs fuel node lps = .ok lps' → SameButNode lps' lps
  | 0, _, _, _, h => by cases h
  | fuel + 1, node, lps, lps', h => by
    unfold setNodes at h
    obtain ⟨o, _, h⟩ := bind_ok h
    cases o with
    | none => cases h; exact ⟨rfl, fun _ => rfl⟩
    | some buf =>
      obtain ⟨list, _, h⟩ := bind_ok h
      obtain ⟨lps1, h2, h⟩ := bind_ok h
      exact (setNodes_inv riscv fs fuel (node + 1) lps1 lps' h).trans (setNode_inv node list lps lps1 h2).1

/-- The processors below `n` selected by `f`. -/
def members (lps : List LP) (n : Nat) (f : LP → Bool) : List Nat := (List.range n).filter (fun i => f (lpAt lps i))

theorem members_succ (lps : List LP) (n : Nat) (f : LP → Bool) :
    members lps (n + 1) f = members lps n f ++ if f (lpAt lps n) then [n] else [] := by
  unfold members
  rw [List.range_succ, List.filter_append]
  congr 1
  cases h : f (lpAt lps n) <;> simp [h]

structure Inv3 (lps : List LP) (n : Nat) (sizes : List PackageSizes) (packages : List Package) : Prop where
  len : packages.length = sizes.length
  dims : ∀ (p : Nat) (P : Package) (s : PackageSizes), packages[p]? = some P → sizes[p]? = some s →
    P.clusters.length = s.numClusters ∧ P.cores.length = s.numCores
  cl : ∀ (p : Nat) (P : Package) (c : Nat) (C : Cluster), packages[p]? = some P → P.clusters[c]? = some C →
    C.lps = members lps n (fun l => l.package = p ∧ l.cluster = c)
  co : ∀ (p : Nat) (P : Package) (c : Nat) (C : Core), packages[p]? = some P → P.cores[c]? = some C →
    C.lps = members lps n (fun l => l.package = p ∧ l.core = c)

theorem populate_inv (lps : List LP) (sizes : List PackageSizes) : ∀ (todo n : Nat) (packages packages' : List Package),
    Inv3 lps n sizes packages → populate lps todo n packages = .ok packages' → Inv3 lps (n + todo) sizes packages'
  | 0, n, packages, packages', inv, h => by
    cases h
    exact inv
  | todo + 1, n, packages, packages', inv, h => by
    unfold populate at h
    obtain ⟨l, h1, h⟩ := bind_ok h
    obtain ⟨P, h2, h⟩ := bind_ok h
    by_cases hk : kMaxLogicalProcessors ≤ n
    · rw [if_pos hk] at h; cases h
    rw [if_neg hk] at h
    obtain ⟨cl, h3, h⟩ := bind_ok h
    obtain ⟨cls, h4, h⟩ := bind_ok h
    obtain ⟨co, h5, h⟩ := bind_ok h
    obtain ⟨cos, h6, h⟩ := bind_ok h
    obtain ⟨ps, h7, h⟩ := bind_ok h
    obtain ⟨w1, rfl⟩ := write_ok h4
    obtain ⟨w2, rfl⟩ := write_ok h6
    obtain ⟨w3, rfl⟩ := write_ok h7
    have hl := lpAt_of_get (read_ok h1)
    have g2 := read_ok h2
    have g3 := read_ok h3
    have g5 := read_ok h5
    have inv' : Inv3 lps (n + 1) sizes (packages.set l.package
        ⟨P.clusters.set l.cluster { cl with lps := cl.lps ++ [n] }, P.cores.set l.core { co with lps := co.lps ++ [n] }⟩) := by
      refine ⟨by simp [inv.len], ?_, ?_, ?_⟩
      · intro p Q s hQ hs
        by_cases e : p = l.package
        · subst e
          rw [List.getElem?_set_self w3] at hQ
          cases hQ
          simpa using inv.dims _ P s g2 hs
        · rw [List.getElem?_set_ne (by omega)] at hQ
          exact inv.dims p Q s hQ hs
      · intro p Q c C hQ hC
        rw [members_succ, hl]
        by_cases e : p = l.package
        · subst e
          rw [List.getElem?_set_self w3] at hQ
          cases hQ
          simp only at hC
          by_cases e' : c = l.cluster
          · subst e'
            rw [List.getElem?_set_self w1] at hC
            cases hC
            simp only [and_self, decide_true, if_true]
            rw [inv.cl _ P _ cl g2 g3]
          · rw [List.getElem?_set_ne (by omega)] at hC
            rw [inv.cl _ P c C g2 hC, if_neg (by simp; omega), List.append_nil]
        · rw [List.getElem?_set_ne (by omega)] at hQ
          rw [inv.cl p Q c C hQ hC, if_neg (by simp; omega), List.append_nil]
      · intro p Q c C hQ hC
        rw [members_succ, hl]
        by_cases e : p = l.package
        · subst e
          rw [List.getElem?_set_self w3] at hQ
          cases hQ
          simp only at hC
          by_cases e' : c = l.core
          · subst e'
            rw [List.getElem?_set_self w2] at hC
            cases hC
            simp only [and_self, decide_true, if_true]
            rw [inv.co _ P _ co g2 g5]
          · rw [List.getElem?_set_ne (by omega)] at hC
            rw [inv.co _ P c C g2 hC, if_neg (by simp; omega), List.append_nil]
        · rw [List.getElem?_set_ne (by omega)] at hQ
          rw [inv.co p Q c C hQ hC, if_neg (by simp; omega), List.append_nil]
    have := populate_inv lps sizes todo (n + 1) _ packages' inv' h
    rw [show n + (todo + 1) = n + 1 + todo by omega]
    exact this

theorem cacheSizes_inv (fs : Sysfs) : ∀ (cs cs' : List Cluster), cacheSizes fs cs = .ok cs' →
    cs'.map (·.lps) = cs.map (·.lps)
  | [], cs', h => by cases h; rfl
  | c :: cs, cs', h => by
    unfold cacheSizes at h
    cases hc : c.lps with
    | nil => rw [hc] at h; cases h
    | cons lp rest =>
      rw [hc] at h
      simp only at h
      obtain ⟨p, _, h⟩ := bind_ok h
      obtain ⟨s, _, h⟩ := bind_ok h
      obtain ⟨r, h1, h⟩ := bind_ok h
      cases h
      simp [cacheSizes_inv fs cs r h1, hc]

theorem setCache_inv (fs : Sysfs) : ∀ (ps ps' : List Package), setClusterCacheSizes fs ps = .ok ps' →
    ps'.map (fun P => (P.clusters.map (·.lps), P.cores)) = ps.map (fun P => (P.clusters.map (·.lps), P.cores))
  | [], ps', h => by cases h; rfl
  | p :: ps, ps', h => by
    unfold setClusterCacheSizes at h
    obtain ⟨cs, h1, h⟩ := bind_ok h
    obtain ⟨rest, h2, h⟩ := bind_ok h
    cases h
    simp [cacheSizes_inv fs _ cs h1, setCache_inv fs ps rest h2]

/-! ## C43: specification -/

/-- What a user of `Topology` relies on. `pid`, `cid` and `kid` are the identifiers in sysfs (`kid` is absent on machines
without clusters). -/
structure Consistent (T : Topology) (total : Nat) (pid cid : Nat → Nat) (kid : Nat → Option Nat) : Prop where
  /-- One entry per processor. -/
  len : T.lps.length = total
  /-- Same package index iff same package. -/
  package : ∀ i j, i < total → j < total → ((lpAt T.lps i).package = (lpAt T.lps j).package ↔ pid i = pid j)
  /-- Within a package, same core index iff same core. -/
  core : ∀ i j, i < total → j < total → pid i = pid j → ((lpAt T.lps i).core = (lpAt T.lps j).core ↔ cid i = cid j)
  /-- Within a package, same cluster index iff same cluster. -/
  cluster : ∀ i j x y, i < total → j < total → pid i = pid j → kid i = some x → kid j = some y →
    ((lpAt T.lps i).cluster = (lpAt T.lps j).cluster ↔ x = y)
  /-- Without clusters, all are in the first. -/
  noCluster : ∀ i, i < total → kid i = none → (lpAt T.lps i).cluster = 0
  /-- All indices are within bounds. -/
  bounds : ∀ i, i < total → ∃ P, T.packages[(lpAt T.lps i).package]? = some P ∧
    (lpAt T.lps i).cluster < P.clusters.length ∧ (lpAt T.lps i).core < P.cores.length
  /-- The set of each cluster holds exactly its processors, and is not empty. -/
  clusterSet : ∀ p P c C, T.packages[p]? = some P → P.clusters[c]? = some C → C.lps ≠ [] ∧
    ∀ i, i ∈ C.lps ↔ i < total ∧ (lpAt T.lps i).package = p ∧ (lpAt T.lps i).cluster = c
  /-- The set of each core holds exactly its processors in order, and is not empty. -/
  coreSet : ∀ p P c C, T.packages[p]? = some P → P.cores[c]? = some C → C.lps ≠ [] ∧ C.lps.Pairwise (· < ·) ∧
    ∀ i, i ∈ C.lps ↔ i < total ∧ (lpAt T.lps i).package = p ∧ (lpAt T.lps i).core = c
  /-- The processors of a core are numbered 0, 1, ... -/
  smt : ∀ i, i < total → ∃ P C, T.packages[(lpAt T.lps i).package]? = some P ∧ P.cores[(lpAt T.lps i).core]? = some C ∧
    C.lps[(lpAt T.lps i).smt]? = some i
  /-- There is at least one package. -/
  packages : T.packages ≠ []

theorem members_mem (lps : List LP) (n : Nat) (f : LP → Bool) (i : Nat) :
    i ∈ members lps n f ↔ i < n ∧ f (lpAt lps i) = true := by
  unfold members
  rw [List.mem_filter, List.mem_range]

theorem members_sorted (lps : List LP) (n : Nat) (f : LP → Bool) : (members lps n f).Pairwise (· < ·) :=
  List.Pairwise.filter _ List.pairwise_lt_range

theorem smtCount_members (lps : List LP) (n p c : Nat) :
    smtCount lps n p c = (members lps n (fun l => l.package = p ∧ l.core = c)).length := rfl

theorem members_get (lps : List LP) (f : LP → Bool) (i : Nat) (hf : f (lpAt lps i) = true) : ∀ (n : Nat), i < n →
    (members lps n f)[(members lps i f).length]? = some i
  | 0, h => by omega
  | n + 1, h => by
    rw [members_succ]
    by_cases e : i = n
    · subst e
      rw [hf]
      simp
    · have ih := members_get lps f i hf n (by omega)
      have : (members lps i f).length < (members lps n f).length := (List.getElem?_eq_some_iff.mp ih).1
      rw [List.getElem?_append_left this]
      exact ih

theorem members_congr (a b : List LP) (n : Nat) (f : LP → Bool) (h : ∀ i, i < n → f (lpAt a i) = f (lpAt b i)) :
    members a n f = members b n f := by
  unfold members
  apply List.filter_congr
  intro i hi
  exact h i (List.mem_range.mp hi)

theorem mk_fields {a b : LP} (h : { a with node := 0 } = { b with node := 0 }) :
    a.package = b.package ∧ a.core = b.core ∧ a.cluster = b.cluster ∧ a.smt = b.smt := by
  cases a; cases b; simp at h ⊢; tauto

/-- C43, for any contents of sysfs: if a topology is detected, it is consistent with the identifiers in sysfs. -/
theorem C43_consistent_any (riscv : Bool) (fs : Sysfs) (total numNodes : Nat) (T : Topology)
    (h : topology riscv fs total numNodes = .ok T) (hne : T.packages ≠ []) :
    ∃ pid cid kid, (∀ i, i < total → readNumber fs .package i = .ok (some (pid i)) ∧
        readNumber fs .core i = .ok (some (cid i)) ∧ readNumber fs .cluster i = .ok (kid i)) ∧
      Consistent T total pid cid kid := by
  unfold topology at h
  obtain ⟨o, h1, h⟩ := bind_ok h
  cases o with
  | none => cases h; exact absurd rfl hne
  | some o =>
  obtain ⟨sizes, lps3⟩ := o
  simp only at h
  obtain ⟨lps4, h4, h⟩ := bind_ok h
  obtain ⟨ps5, h5, h⟩ := bind_ok h
  obtain ⟨ps6, h6, h⟩ := bind_ok h
  cases h
  simp only at hne
  -- detection
  unfold detectPackages at h1
  obtain ⟨o, g1, h1⟩ := bind_ok h1
  cases o with
  | none => cases h1
  | some o =>
  obtain ⟨packages, lps1⟩ := o
  simp only at h1
  by_cases hp0 : packages.num = 0
  · rw [if_pos hp0] at h1; cases h1
  rw [if_neg hp0] at h1
  obtain ⟨o, g2, h1⟩ := bind_ok h1
  cases o with
  | none => cases h1
  | some o =>
  obtain ⟨pps, lps2⟩ := o
  simp only at h1
  obtain ⟨sz, g3, h1⟩ := bind_ok h1
  cases h1
  have i1 : Inv1 fs 0 total {} (List.replicate total {}) [] :=
    ⟨by simp, ⟨by simp, rfl, rfl⟩, fun i hi => by omega, fun k hk => by simp at hk⟩
  rw [List.length_replicate] at g1
  obtain ⟨ids, inv1⟩ := detect1_inv fs total _ _ _ _ _ _ _ i1 g1
  rw [Nat.zero_add] at inv1
  rw [inv1.len] at g2
  have s2 : State2 fs 0 total lps1 (List.replicate packages.num {}) lps1 (fun _ => ([], [])) := by
    refine ⟨inv1.len, fun _ => rfl, ?_⟩
    intro p pp hpp
    rw [List.getElem?_replicate] at hpp
    split at hpp
    · cases hpp
      exact ⟨⟨by simp, rfl, rfl⟩, ⟨by simp, rfl, rfl⟩, fun i hi => by omega, fun i hi => by omega,
        fun k hk => by simp at hk, fun k hk => by simp at hk, fun c hc => by
          simp only
          rw [List.getElem?_replicate, if_pos hc]; rfl, fun c => by simp [smtCount], fun i hi => by omega⟩
    · cases hpp
  obtain ⟨ids2, st, hlen⟩ := detect2_inv fs total lps1 _ _ _ _ _ _ _ s2 g2
  rw [Nat.zero_add] at st
  rw [List.length_replicate] at hlen
  obtain ⟨z1, z2⟩ := packageSizes_inv pps sizes g3
  have sn := setNodes_inv riscv fs _ _ _ _ h4
  have fld : ∀ i, (lpAt lps4 i).package = (lpAt lps3 i).package ∧ (lpAt lps4 i).core = (lpAt lps3 i).core ∧
      (lpAt lps4 i).cluster = (lpAt lps3 i).cluster ∧ (lpAt lps4 i).smt = (lpAt lps3 i).smt := fun i => mk_fields (sn.2 i)
  have hlen4 : lps4.length = total := sn.1.trans st.len
  rw [hlen4] at h5
  have inv3 : Inv3 lps4 0 sizes (sizes.map (fun s => (⟨List.replicate s.numClusters {}, List.replicate s.numCores {}⟩ : Package))) := by
    refine ⟨by simp, ?_, ?_, ?_⟩
    · intro p P s hP hs
      rw [List.getElem?_map, hs] at hP
      cases hP
      simp
    · intro p P c C hP hC
      rw [List.getElem?_map] at hP
      cases hs : sizes[p]? with
      | none => rw [hs] at hP; cases hP
      | some s =>
        rw [hs] at hP
        cases hP
        simp only at hC
        rw [List.getElem?_replicate] at hC
        split at hC
        · cases hC; rfl
        · cases hC
    · intro p P c C hP hC
      rw [List.getElem?_map] at hP
      cases hs : sizes[p]? with
      | none => rw [hs] at hP; cases hP
      | some s =>
        rw [hs] at hP
        cases hP
        simp only at hC
        rw [List.getElem?_replicate] at hC
        split at hC
        · cases hC; rfl
        · cases hC
  have inv3 := populate_inv lps4 sizes _ _ _ _ inv3 h5
  rw [Nat.zero_add] at inv3
  have hmap := setCache_inv fs _ _ h6
  -- a package of the result and the one before the cache sizes were set
  have hlen6 : ps6.length = ps5.length := by simpa using congrArg List.length hmap
  have hP6 : ∀ (p : Nat) (P : Package), ps6[p]? = some P → ∃ Q : Package, ps5[p]? = some Q ∧
      P.clusters.map (·.lps) = Q.clusters.map (·.lps) ∧ P.cores = Q.cores := by
    intro p P hP
    have := congrArg (fun l => l[p]?) hmap
    simp only [List.getElem?_map, hP, Option.map_some] at this
    cases hQ : ps5[p]? with
    | none => rw [hQ] at this; cases this
    | some Q =>
      rw [hQ] at this
      simp only [Option.map_some, Option.some.injEq, Prod.mk.injEq] at this
      exact ⟨Q, rfl, this.1, this.2⟩
  -- the per-package state
  have hpp : ∀ p, p < ids.length → ∃ pp, pps[p]? = some pp := by
    intro p hp
    have : p < pps.length := by rw [hlen, inv1.r.num]; exact hp
    exact ⟨pps[p], List.getElem?_eq_getElem this⟩
  have hpk : ∀ i, i < total → (lpAt lps3 i).package < ids.length := by
    intro i hi
    obtain ⟨x, _, e⟩ := inv1.id i hi
    rw [st.same]
    exact (List.getElem?_eq_some_iff.mp e).1
  -- identifiers
  have hid : ∀ i, i < total → ∃ x y z, readNumber fs .package i = .ok (some x) ∧ readNumber fs .core i = .ok (some y) ∧
      readNumber fs .cluster i = .ok z := by
    intro i hi
    obtain ⟨x, e1, _⟩ := inv1.id i hi
    obtain ⟨pp, hpp⟩ := hpp _ (hpk i hi)
    obtain ⟨y, e2, _⟩ := (st.inv _ pp hpp).core i hi rfl
    rcases (st.inv _ pp hpp).cluster i hi rfl with ⟨e3, _⟩ | ⟨z, e3, _⟩
    · exact ⟨x, y, none, e1, e2, e3⟩
    · exact ⟨x, y, some z, e1, e2, e3⟩
  refine ⟨fun i => match readNumber fs .package i with | .ok (some x) => x | _ => 0,
    fun i => match readNumber fs .core i with | .ok (some x) => x | _ => 0,
    fun i => match readNumber fs .cluster i with | .ok x => x | _ => none, ?_, ?_⟩
  · intro i hi
    obtain ⟨x, y, z, e1, e2, e3⟩ := hid i hi
    simp only [e1, e2, e3, and_self]
  have hpid : ∀ i j, i < total → j < total → ((lpAt lps4 i).package = (lpAt lps4 j).package ↔
      (match readNumber fs .package i with | .ok (some x) => x | _ => 0) =
      (match readNumber fs .package j with | .ok (some x) => x | _ => 0)) := by
    intro i j hi hj
    obtain ⟨x, e1, e2⟩ := inv1.id i hi
    obtain ⟨y, f1, f2⟩ := inv1.id j hj
    rw [e1, f1, (fld i).1, (fld j).1, st.same, st.same]
    constructor
    · intro e
      rw [e, f2] at e2
      exact (Option.some.inj e2).symm
    · intro e
      simp only at e
      subst e
      exact nodup_idx inv1.r.nodup e2 f2
  refine ⟨hlen4, hpid, ?_, ?_, ?_, ?_, ?_, ?_, ?_, hne⟩
  · intro i j hi hj hij
    have hpkg := (hpid i j hi hj).mpr hij
    rw [(fld i).1, (fld j).1] at hpkg
    obtain ⟨pp, hpp⟩ := hpp _ (hpk i hi)
    obtain ⟨x, e1, e2⟩ := (st.inv _ pp hpp).core i hi rfl
    obtain ⟨y, f1, f2⟩ := (st.inv _ pp hpp).core j hj hpkg.symm
    rw [e1, f1, (fld i).2.1, (fld j).2.1]
    constructor
    · intro e
      rw [e, f2] at e2
      exact (Option.some.inj e2).symm
    · intro e
      simp only at e
      subst e
      exact nodup_idx (st.inv _ pp hpp).cores.nodup e2 f2
  · intro i j x y hi hj hij hx hy
    have hpkg := (hpid i j hi hj).mpr hij
    rw [(fld i).1, (fld j).1] at hpkg
    obtain ⟨pp, hpp⟩ := hpp _ (hpk i hi)
    rw [(fld i).2.2.1, (fld j).2.2.1]
    rcases (st.inv _ pp hpp).cluster i hi rfl with ⟨e1, _⟩ | ⟨x', e1, e2⟩
    · rw [e1] at hx; cases hx
    rcases (st.inv _ pp hpp).cluster j hj hpkg.symm with ⟨f1, _⟩ | ⟨y', f1, f2⟩
    · rw [f1] at hy; cases hy
    rw [e1] at hx
    rw [f1] at hy
    cases hx
    cases hy
    constructor
    · intro e
      rw [e, f2] at e2
      exact (Option.some.inj e2).symm
    · intro e
      subst e
      exact nodup_idx (st.inv _ pp hpp).clusters.nodup e2 f2
  · intro i hi hx
    obtain ⟨pp, hpp⟩ := hpp _ (hpk i hi)
    rw [(fld i).2.2.1]
    rcases (st.inv _ pp hpp).cluster i hi rfl with ⟨_, e2⟩ | ⟨x', e1, e2⟩
    · exact e2
    · rw [e1] at hx; cases hx
  · intro i hi
    obtain ⟨pp, hpp⟩ := hpp _ (hpk i hi)
    have hps := z2 _ pp hpp
    have hlt : (lpAt lps4 i).package < ps6.length := by
      rw [hlen6, inv3.len, (fld i).1]
      exact (List.getElem?_eq_some_iff.mp hps).1
    refine ⟨ps6[(lpAt lps4 i).package], List.getElem?_eq_getElem hlt, ?_⟩
    obtain ⟨Q, hQ, q1, q2⟩ := hP6 _ _ (List.getElem?_eq_getElem hlt)
    have d := inv3.dims _ Q _ hQ (by rw [(fld i).1]; exact hps)
    have l1 := congrArg List.length q1
    rw [List.length_map, List.length_map] at l1
    rw [l1, q2, d.1, d.2, (fld i).2.1, (fld i).2.2.1]
    simp only
    rw [(st.inv _ pp hpp).clusters.num, (st.inv _ pp hpp).cores.num]
    constructor
    · rcases (st.inv _ pp hpp).cluster i hi rfl with ⟨_, e2⟩ | ⟨x', _, e2⟩
      · omega
      · have := (List.getElem?_eq_some_iff.mp e2).1
        omega
    · obtain ⟨x, _, e2⟩ := (st.inv _ pp hpp).core i hi rfl
      exact (List.getElem?_eq_some_iff.mp e2).1
  · intro p P c C hP hC
    obtain ⟨Q, hQ, q1, q2⟩ := hP6 _ _ hP
    have hp : p < ids.length := by
      have := (List.getElem?_eq_some_iff.mp hQ).1
      rw [inv3.len, z1, hlen, inv1.r.num] at this
      exact this
    obtain ⟨pp, hpp⟩ := hpp p hp
    have inv := st.inv _ pp hpp
    have d := inv3.dims _ Q _ hQ (z2 _ pp hpp)
    obtain ⟨C', hC', ec⟩ : ∃ C', Q.clusters[c]? = some C' ∧ C.lps = C'.lps := by
      have := congrArg (fun l => l[c]?) q1
      simp only [List.getElem?_map, hC, Option.map_some] at this
      cases hq : Q.clusters[c]? with
      | none => rw [hq] at this; cases this
      | some C' =>
        rw [hq] at this
        exact ⟨C', rfl, Option.some.inj this⟩
    have hmem : ∀ i, i ∈ C.lps ↔ i < total ∧ (lpAt lps4 i).package = p ∧ (lpAt lps4 i).cluster = c := by
      intro i
      rw [ec, inv3.cl p Q c C' hQ hC', members_mem]
      simp
    refine ⟨?_, hmem⟩
    have hc := (List.getElem?_eq_some_iff.mp hC').1
    rw [d.1] at hc
    simp only [inv.clusters.num] at hc
    suffices ∃ i, i ∈ C.lps by
      obtain ⟨i, hi⟩ := this
      intro e
      rw [e] at hi
      cases hi
    by_cases hk : c < (ids2 p).2.length
    · obtain ⟨i, i1, i2, i3, _⟩ := inv.clusterOnto c hk
      exact ⟨i, (hmem i).mpr ⟨i1, by rw [(fld i).1]; exact i2, by rw [(fld i).2.2.1]; exact i3⟩⟩
    · obtain ⟨i, i1, i2⟩ := inv1.onto p hp
      rw [← st.same] at i2
      refine ⟨i, (hmem i).mpr ⟨i1, by rw [(fld i).1]; exact i2, ?_⟩⟩
      rw [(fld i).2.2.1]
      rcases inv.cluster i i1 i2 with ⟨_, e⟩ | ⟨x, _, e⟩
      · omega
      · have := (List.getElem?_eq_some_iff.mp e).1
        omega
  · intro p P c C hP hC
    obtain ⟨Q, hQ, q1, q2⟩ := hP6 _ _ hP
    rw [q2] at hC
    have hp : p < ids.length := by
      have := (List.getElem?_eq_some_iff.mp hQ).1
      rw [inv3.len, z1, hlen, inv1.r.num] at this
      exact this
    obtain ⟨pp, hpp⟩ := hpp p hp
    have inv := st.inv _ pp hpp
    have d := inv3.dims _ Q _ hQ (z2 _ pp hpp)
    have hmem : ∀ i, i ∈ C.lps ↔ i < total ∧ (lpAt lps4 i).package = p ∧ (lpAt lps4 i).core = c := by
      intro i
      rw [inv3.co p Q c C hQ hC, members_mem]
      simp
    refine ⟨?_, by rw [inv3.co p Q c C hQ hC]; exact members_sorted _ _ _, hmem⟩
    have hc := (List.getElem?_eq_some_iff.mp hC).1
    rw [d.2] at hc
    simp only [inv.cores.num] at hc
    obtain ⟨i, i1, i2, i3⟩ := inv.coreOnto c hc
    have hi := (hmem i).mpr ⟨i1, by rw [(fld i).1]; exact i2, by rw [(fld i).2.1]; exact i3⟩
    intro e
    rw [e] at hi
    cases hi
  · intro i hi
    obtain ⟨pp, hpp⟩ := hpp _ (hpk i hi)
    have inv := st.inv _ pp hpp
    have hps := z2 _ pp hpp
    have hlt : (lpAt lps4 i).package < ps6.length := by
      rw [hlen6, inv3.len, (fld i).1]
      exact (List.getElem?_eq_some_iff.mp hps).1
    obtain ⟨Q, hQ, q1, q2⟩ := hP6 _ _ (List.getElem?_eq_getElem hlt)
    have d := inv3.dims _ Q _ hQ (by rw [(fld i).1]; exact hps)
    have hco : (lpAt lps4 i).core < Q.cores.length := by
      rw [d.2, (fld i).2.1]
      simp only [inv.cores.num]
      obtain ⟨x, _, e2⟩ := inv.core i hi rfl
      exact (List.getElem?_eq_some_iff.mp e2).1
    refine ⟨ps6[(lpAt lps4 i).package], Q.cores[(lpAt lps4 i).core], List.getElem?_eq_getElem hlt,
      by rw [q2]; exact List.getElem?_eq_getElem hco, ?_⟩
    rw [inv3.co _ Q _ _ hQ (List.getElem?_eq_getElem hco), (fld i).2.2.2, inv.smt i hi rfl, smtCount_members]
    have e : members lps3 i (fun l => l.package = (lpAt lps3 i).package ∧ l.core = (lpAt lps3 i).core) =
        members lps4 i (fun l => l.package = (lpAt lps4 i).package ∧ l.core = (lpAt lps4 i).core) := by
      rw [(fld i).1, (fld i).2.1]
      apply members_congr
      intro j _
      simp only [(fld j).1, (fld j).2.1]
    rw [e]
    exact members_get lps4 _ i (by simp) total hi

end Topo
end Hwy
