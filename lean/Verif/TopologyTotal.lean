import Verif.TopologySafe
import Mathlib.Data.List.Perm.Subperm

/-!
# C43: a well-formed sysfs is detected
-/

namespace Hwy
namespace Topo

/-! ### Specification -/

/-- A machine, as Linux describes it: the numerals in the files of each processor and the processors of each NUMA node. -/
structure Machine where
  total : Nat
  pkg : Nat → Numeral
  core : Nat → Numeral
  cluster : Nat → Option Numeral
  nodes : List (List Term)
  l2 : Nat → Option (Numeral × List Char)
  l3 : Nat → Option (Numeral × List Char)

/-- A numeral as file. -/
def numFile (n : Numeral) : List Char := n.render ++ ['\n']

def sizeFile (n : Numeral × List Char) : List Char := n.1.render ++ (n.2 ++ ['\n'])

def Digits9 (n : Numeral) : Prop := 0 < n.length ∧ n.length ≤ 9

/-- `fs` is what Linux reports for the machine. -/
structure Describes (m : Machine) (fs : Sysfs) : Prop where
  package : ∀ i, i < m.total → fs .package i = some (numFile (m.pkg i)) ∧ Digits9 (m.pkg i)
  core : ∀ i, i < m.total → fs .core i = some (numFile (m.core i)) ∧ Digits9 (m.core i)
  cluster : ∀ i, i < m.total → fs .cluster i = (m.cluster i).map numFile ∧ ∀ n, m.cluster i = some n → Digits9 n
  node : ∀ n, fs .node n = (m.nodes[n]?).map (fun ts => renderList ts ++ ['\n'])
  nodeOk : ∀ ts ∈ m.nodes, ts ≠ [] ∧ (∀ t ∈ ts, t.Ok (m.total - 1)) ∧ (renderList ts).length ≤ 198
  l2 : ∀ i, i < m.total → fs .l2 i = (m.l2 i).map sizeFile ∧ ∀ n, m.l2 i = some n → Digits9 n.1 ∧ suffixUnit n.2 ≠ none
  l3 : ∀ i, i < m.total → fs .l3 i = (m.l3 i).map sizeFile ∧ ∀ n, m.l3 i = some n → Digits9 n.1 ∧ suffixUnit n.2 ≠ none

/-- The limits of the implementation. -/
structure Limits (m : Machine) : Prop where
  pos : 0 < m.total
  total : m.total ≤ 1024
  /-- At most 255 packages. -/
  packages : ∃ L : List Nat, L.length ≤ 255 ∧ ∀ i, i < m.total → (m.pkg i).value ∈ L
  /-- At most 16 processors per core. -/
  smt : ∀ i, i < m.total →
    ((List.range i).filter (fun j => (m.pkg j).value = (m.pkg i).value ∧ (m.core j).value = (m.core i).value)).length < 16

/-- The processors of each node. -/
def Machine.nodeCpus (m : Machine) : List (List Nat) := m.nodes.map (fun ts => (ts.map Term.cpus).flatten)

/-- Size in KiB. -/
def kib : Option (Numeral × List Char) → Nat
  | none => 0
  | some (n, suffix) => n.value * (suffixUnit suffix).getD 0 / 1024

/-! ### Proofs -/

theorem readNumber_num {fs : Sysfs} {key : Key} {i : Nat} {n : Numeral} (h : fs key i = some (numFile n)) (hd : Digits9 n) :
    readNumber fs key i = .ok (some n.value) := by
  unfold readNumber readSysfs
  rw [h]
  simp only
  have hl : (numFile n).length ≤ 199 := by
    have := hd.2
    simp [numFile, Numeral.render]
    omega
  rw [C44_read [] _ hl]
  have := C37_number n hd.1 hd.2 [] 1 rfl ['\n', '\x00'] ⟨[], Or.inr rfl⟩ (numFile n ++ ['\x00']).length
    (by simp [numFile, Numeral.render])
  rw [List.nil_append, Nat.mul_one] at this
  have e : n.render ++ ['\n', '\x00'] = numFile n ++ ['\x00'] := by simp [numFile]
  rw [e] at this
  exact this

theorem suffix_len {s : List Char} (h : suffixUnit s ≠ none) : s.length ≤ 2 := by
  unfold suffixUnit at h
  split at h <;> simp_all

theorem readNumber_size {fs : Sysfs} {key : Key} {i : Nat} {n : Numeral × List Char} (h : fs key i = some (sizeFile n))
    (hd : Digits9 n.1) (hs : suffixUnit n.2 ≠ none) :
    readNumber fs key i = .ok (some (n.1.value * (suffixUnit n.2).getD 0)) := by
  unfold readNumber readSysfs
  rw [h]
  simp only
  have hl2 := suffix_len hs
  have hl : (sizeFile n).length ≤ 199 := by
    have := hd.2
    simp [sizeFile, Numeral.render]
    omega
  rw [C44_read [] _ hl]
  obtain ⟨u, hu⟩ := Option.ne_none_iff_exists'.mp hs
  have := C37_number n.1 hd.1 hd.2 n.2 u hu ['\n', '\x00'] ⟨[], Or.inr rfl⟩ (sizeFile n ++ ['\x00']).length
    (by simp [sizeFile, Numeral.render])
  have e : n.1.render ++ (n.2 ++ ['\n', '\x00']) = sizeFile n ++ ['\x00'] := by simp [sizeFile]
  rw [e] at this
  rw [hu, Option.getD_some]
  exact this

theorem call_ok {r : Remapper} {fs : Sysfs} {key : Key} {lp maxT id : Nat} {ids : List Nat} (hr : RInv r ids)
    (h : readNumber fs key lp = .ok (some id)) (L : List Nat) (hL : L.length ≤ maxT) (hsub : ∀ x ∈ ids, x ∈ L) (hid : id ∈ L) :
    ∃ r' index, r.call fs key lp maxT = .ok (some (r', index)) := by
  have hlen : ids.length ≤ L.length := (hr.nodup.subperm hsub).length_le
  unfold Remapper.call
  rw [h, ok_bind']
  simp only
  obtain ⟨l1, l2⟩ := lookup_zipIdx id ids 0
  rw [← hr.ind] at l1 l2
  cases hl : r.indices.lookup id with
  | some i =>
    simp only
    obtain ⟨_, l3⟩ := l1 i hl
    have : i < ids.length := (List.getElem?_eq_some_iff.mp (by simpa using l3)).1
    rw [if_neg (by rw [hr.num]; omega), if_neg (by omega)]
    exact ⟨_, _, rfl⟩
  | none =>
    simp only
    have hlen' : (id :: ids).length ≤ L.length := by
      apply List.Subperm.length_le
      apply List.Nodup.subperm
      · exact List.nodup_cons.mpr ⟨l2 hl, hr.nodup⟩
      · intro x hx
        rw [List.mem_cons] at hx
        rcases hx with rfl | hx
        · exact hid
        · exact hsub x hx
    rw [List.length_cons] at hlen'
    rw [if_neg (by omega), if_neg (by rw [hr.num]; omega)]
    exact ⟨_, _, rfl⟩

theorem detect1_ok {fs : Sysfs} {total : Nat} {pid : Nat → Nat} (L : List Nat) (hL : L.length ≤ 255)
    (hpid : ∀ i, i < total → readNumber fs .package i = .ok (some (pid i)) ∧ pid i ∈ L) :
    ∀ (todo lp : Nat) (packages : Remapper) (lps : List LP) (ids : List Nat), lp + todo = total →
      Inv1 fs lp total packages lps ids → ∃ p, detect1 fs todo lp packages lps = .ok (some p)
  | 0, _, packages, lps, _, _, _ => ⟨_, rfl⟩
  | todo + 1, lp, packages, lps, ids, hn, inv => by
    have hsub : ∀ x ∈ ids, x ∈ L := by
      intro x hx
      obtain ⟨k, hk⟩ := List.getElem?_of_mem hx
      obtain ⟨i, i1, i2⟩ := inv.onto k (List.getElem?_eq_some_iff.mp hk).1
      obtain ⟨y, e1, e2⟩ := inv.id i i1
      rw [i2, hk] at e2
      cases e2
      have := hpid i (by omega)
      rw [this.1] at e1
      cases e1
      exact this.2
    obtain ⟨r', index, hc⟩ := call_ok inv.r (hpid lp (by omega)).1 L hL hsub (hpid lp (by omega)).2
    have hlt : lp < lps.length := by rw [inv.len]; omega
    have step : ∀ t, detect1 fs (t + 1) lp packages lps =
        detect1 fs t (lp + 1) r' (lps.set lp { lps[lp] with package := index }) := by
      intro t
      rw [detect1, hc, ok_bind']
      simp only
      rw [readAt_of_lt hlt, ok_bind', writeAt_of_lt _ hlt, ok_bind']
    obtain ⟨ids', inv'⟩ := detect1_inv fs total 1 lp packages lps ids _ _ inv (step 0)
    rw [step]
    exact detect1_ok L hL hpid todo (lp + 1) r' _ ids' (by omega) inv'

theorem clusterOf_ok {fs : Sysfs} {pp : PerPackage} {lp : Nat} {kids : List Nat} {k : Option Nat}
    (hr : RInv pp.clusters kids) (h : readNumber fs .cluster lp = .ok k) (L : List Nat) (hL : L.length ≤ 65535)
    (hsub : ∀ x ∈ kids, x ∈ L) (hid : ∀ x, k = some x → x ∈ L) : ∃ p, clusterOf fs pp lp = .ok p := by
  unfold clusterOf
  cases k with
  | none =>
    refine ⟨(pp, 0), ?_⟩
    have : pp.clusters.call fs .cluster lp 65535 = .ok none := by
      unfold Remapper.call
      rw [h, ok_bind']
      rfl
    rw [this, ok_bind']
    rfl
  | some x =>
    obtain ⟨r', index, hc⟩ := call_ok hr h L hL hsub (hid x rfl)
    rw [hc, ok_bind']
    exact ⟨_, rfl⟩

theorem detect2_ok {fs : Sysfs} {total : Nat} {lps0 : List LP} {packages : Remapper} {ids : List Nat} {pid cid : Nat → Nat}
    {kid : Nat → Option Nat} (ht : total ≤ 1024) (inv1 : Inv1 fs total total packages lps0 ids)
    (hpid : ∀ i, i < total → readNumber fs .package i = .ok (some (pid i)))
    (hcid : ∀ i, i < total → readNumber fs .core i = .ok (some (cid i)))
    (hkid : ∀ i, i < total → readNumber fs .cluster i = .ok (kid i))
    (hsmt : ∀ i, i < total → ((List.range i).filter (fun j => pid j = pid i ∧ cid j = cid i)).length < 16) :
    ∀ (todo lp : Nat) (pps : List PerPackage) (lps : List LP) (ids2 : Nat → List Nat × List Nat), lp + todo = total →
      pps.length = packages.num → State2 fs lp total lps0 pps lps ids2 → ∃ p, detect2 fs todo lp pps lps = .ok (some p)
  | 0, _, pps, lps, _, _, _, _ => ⟨_, rfl⟩
  | todo + 1, lp, pps, lps, ids2, hn, hlen, st => by
    have hlt : lp < lps.length := by rw [st.len]; omega
    have hl : lpAt lps lp = lps[lp] := lpAt_of_get (List.getElem?_eq_getElem hlt)
    have hp : lps[lp].package < pps.length := by
      rw [← hl, st.same, hlen, inv1.r.num]
      obtain ⟨x, _, e⟩ := inv1.id lp (by omega)
      exact (List.getElem?_eq_some_iff.mp e).1
    have hpp := List.getElem?_eq_getElem hp
    have inv := st.inv _ _ hpp
    obtain ⟨⟨pp1, cl⟩, hcl⟩ := clusterOf_ok inv.clusters (hkid lp (by omega)) ((List.range total).filterMap kid)
      (by have := List.length_filterMap_le kid (List.range total); rw [List.length_range] at this; omega)
      (by
        intro x hx
        obtain ⟨k, hk⟩ := List.getElem?_of_mem hx
        obtain ⟨i, i1, _, _, i4⟩ := inv.clusterOnto k (List.getElem?_eq_some_iff.mp hk).1
        rw [List.mem_filterMap]
        refine ⟨i, List.mem_range.mpr (by omega), ?_⟩
        rw [hkid i (by omega), hk] at i4
        exact Except.ok.inj i4)
      (by
        intro x hx
        rw [List.mem_filterMap]
        exact ⟨lp, List.mem_range.mpr (by omega), hx⟩)
    obtain ⟨kids', k1, k2, k3, k4, k5, k6⟩ := clusterOf_inv inv.clusters hcl
    have hcores : RInv pp1.cores (ids2 lps[lp].package).1 := by rw [k3]; exact inv.cores
    have hsub : ∀ x ∈ (ids2 lps[lp].package).1, x ∈ (List.range total).map cid := by
      intro x hx
      obtain ⟨k, hk⟩ := List.getElem?_of_mem hx
      obtain ⟨i, i1, i2, i3⟩ := inv.coreOnto k (List.getElem?_eq_some_iff.mp hk).1
      obtain ⟨y, e1, e2⟩ := inv.core i i1 i2
      rw [i3, hk] at e2
      cases e2
      rw [hcid i (by omega)] at e1
      cases e1
      exact List.mem_map.mpr ⟨i, List.mem_range.mpr (by omega), rfl⟩
    have hself : cid lp ∈ (List.range total).map cid := List.mem_map.mpr ⟨lp, List.mem_range.mpr (by omega), rfl⟩
    obtain ⟨r', core, hco⟩ := call_ok hcores (hcid lp (by omega)) ((List.range total).map cid)
      (maxT := 65535) (by simp; omega) hsub hself
    obtain ⟨x, cids', c1, c2, c3, c4, c5, c6⟩ := call_some hcores hco
    rw [hcid lp (by omega)] at c1
    cases c1
    -- the core index is small
    have hcore : core < 1024 := by
      have h1 := (List.getElem?_eq_some_iff.mp c4).1
      have h2 : cids'.length ≤ ((List.range total).map cid).length := by
        apply List.Subperm.length_le
        apply c2.nodup.subperm
        intro y hy
        obtain ⟨k, hk⟩ := List.getElem?_of_mem hy
        rcases c6 k (List.getElem?_eq_some_iff.mp hk).1 with g | g
        · have := prefix_get c3 (List.getElem?_eq_getElem g)
          rw [hk] at this
          cases this
          exact hsub _ (List.getElem_mem g)
        · rw [g, c4] at hk
          cases hk
          exact hself
      rw [List.length_map, List.length_range] at h2
      omega
    have hspc : core < pp1.smtPerCore.length := by
      have := inv.per core hcore
      rw [← k4] at this
      exact (List.getElem?_eq_some_iff.mp this).1
    have hval : pp1.smtPerCore[core] = smtCount lps lp lps[lp].package core := by
      have := inv.per core hcore
      rw [← k4, List.getElem?_eq_getElem hspc] at this
      exact Option.some.inj this
    have h16 : smtCount lps lp lps[lp].package core < 16 := by
      refine Nat.lt_of_le_of_lt ?_ (hsmt lp (by omega))
      unfold smtCount
      rw [← List.countP_eq_length_filter, ← List.countP_eq_length_filter]
      apply List.countP_mono_left
      intro j hj hj2
      rw [List.mem_range] at hj
      simp only [decide_eq_true_eq] at hj2 ⊢
      obtain ⟨j1, j2⟩ := hj2
      constructor
      · obtain ⟨x, e1, e2⟩ := inv1.id j (by omega)
        obtain ⟨y, f1, f2⟩ := inv1.id lp (by omega)
        rw [hpid j (by omega)] at e1
        rw [hpid lp (by omega)] at f1
        cases e1
        cases f1
        rw [← st.same, j1] at e2
        rw [← st.same, hl, e2] at f2
        exact Option.some.inj f2
      · obtain ⟨x, e1, e2⟩ := inv.core j hj j1
        rw [hcid j (by omega)] at e1
        cases e1
        have := prefix_get c3 e2
        rw [j2, c4] at this
        exact (Option.some.inj this).symm
    have step : ∀ t, detect2 fs (t + 1) lp pps lps = detect2 fs t (lp + 1)
        (pps.set lps[lp].package { pp1 with cores := r', smtPerCore := pp1.smtPerCore.set core ((pp1.smtPerCore[core] + 1) % 256) })
        (lps.set lp { lps[lp] with cluster := cl, core := core, smt := pp1.smtPerCore[core] }) := by
      intro t
      rw [detect2, readAt_of_lt hlt, ok_bind', readAt_of_lt hp, ok_bind', hcl, ok_bind']
      simp only
      rw [hco, ok_bind']
      simp only
      rw [if_neg (by unfold kMaxLogicalProcessors; omega), readAt_of_lt hspc, ok_bind', writeAt_of_lt _ hspc, ok_bind',
        if_neg (by rw [hval]; omega), writeAt_of_lt _ hp, ok_bind', writeAt_of_lt _ hlt, ok_bind']
    obtain ⟨ids2', st', hl'⟩ := detect2_inv fs total lps0 1 lp pps lps ids2 _ _ st (step 0)
    rw [step]
    exact detect2_ok ht inv1 hpid hcid hkid hsmt todo (lp + 1) _ _ ids2' (by omega) (by rw [hl', hlen]) st'

theorem packageSizes_ok : ∀ (pps : List PerPackage), (∀ pp ∈ pps, pp.cores.num ≠ 0) → ∃ sizes, packageSizes pps = .ok sizes
  | [], _ => ⟨_, rfl⟩
  | pp :: pps, h => by
    obtain ⟨s, hs⟩ := packageSizes_ok pps (fun x hx => h x (by simp [hx]))
    unfold packageSizes
    rw [if_neg (h pp (by simp)), hs, ok_bind']
    exact ⟨_, rfl⟩

/-- Detection succeeds. -/
theorem detectPackages_ok {fs : Sysfs} {total : Nat} {pid cid : Nat → Nat} {kid : Nat → Option Nat} (h0 : 0 < total)
    (ht : total ≤ 1024) (L : List Nat) (hL : L.length ≤ 255) (hpL : ∀ i, i < total → pid i ∈ L)
    (hpid : ∀ i, i < total → readNumber fs .package i = .ok (some (pid i)))
    (hcid : ∀ i, i < total → readNumber fs .core i = .ok (some (cid i)))
    (hkid : ∀ i, i < total → readNumber fs .cluster i = .ok (kid i))
    (hsmt : ∀ i, i < total → ((List.range i).filter (fun j => pid j = pid i ∧ cid j = cid i)).length < 16) :
    ∃ p, detectPackages fs (List.replicate total {}) = .ok (some p) := by
  unfold detectPackages
  rw [List.length_replicate]
  obtain ⟨⟨packages, lps1⟩, h1⟩ := detect1_ok L hL (fun i hi => ⟨hpid i hi, hpL i hi⟩) total 0 {} (List.replicate total {}) []
    (by omega) (inv1_init fs total)
  rw [h1, ok_bind']
  obtain ⟨ids, inv1⟩ := detect1_inv fs total _ _ _ _ _ _ _ (inv1_init fs total) h1
  rw [Nat.zero_add] at inv1
  simp only
  have hnum : packages.num ≠ 0 := by
    rw [inv1.r.num]
    obtain ⟨x, _, e⟩ := inv1.id 0 h0
    have := (List.getElem?_eq_some_iff.mp e).1
    omega
  rw [if_neg hnum, inv1.len]
  obtain ⟨⟨pps, lps2⟩, h2⟩ := detect2_ok ht inv1 hpid hcid hkid hsmt total 0 (List.replicate packages.num {}) lps1 _
    (by omega) (by simp) (state2_init inv1)
  rw [h2, ok_bind']
  simp only
  obtain ⟨ids2, st, hlen⟩ := detect2_inv fs total lps1 _ _ _ _ _ _ _ (state2_init inv1) h2
  rw [Nat.zero_add] at st
  rw [List.length_replicate] at hlen
  obtain ⟨sizes, h3⟩ := packageSizes_ok pps (by
    intro pp hpp
    obtain ⟨p, hp⟩ := List.getElem?_of_mem hpp
    have hlt : p < ids.length := by
      rw [← inv1.r.num, ← hlen]
      exact (List.getElem?_eq_some_iff.mp hp).1
    obtain ⟨i, i1, i2⟩ := inv1.onto p hlt
    rw [← st.same] at i2
    obtain ⟨x, _, e⟩ := (st.inv p pp hp).core i i1 i2
    rw [(st.inv p pp hp).cores.num]
    have := (List.getElem?_eq_some_iff.mp e).1
    omega)
  rw [h3, ok_bind']
  exact ⟨_, rfl⟩

/-! ### Nodes -/

/-- The last list that contains `i`, counting from `base`; else `d`. -/
def lastNode : List (List Nat) → Nat → Nat → Nat → Nat
  | [], _, _, d => d
  | l :: ls, base, i, d => lastNode ls (base + 1) i (if i ∈ l then base % 256 else d)

theorem setNode_ok (node : Nat) : ∀ (list : List Nat) (lps : List LP), (∀ x ∈ list, x < lps.length) →
    ∃ lps', setNode node list lps = .ok lps'
  | [], lps, _ => ⟨lps, rfl⟩
  | x :: list, lps, h => by
    have hx := h x (by simp)
    obtain ⟨lps', e⟩ := setNode_ok node list (lps.set x { lps[x] with node := node % 256 })
      (fun y hy => by simpa using h y (by simp [hy]))
    refine ⟨lps', ?_⟩
    rw [setNode, readAt_of_lt hx, ok_bind', writeAt_of_lt _ hx, ok_bind']
    exact e

theorem setNodes_ok (riscv : Bool) (fs : Sysfs) (total : Nat) (h0 : 0 < total) : ∀ (rest : List (List Term)) (node : Nat) (lps : List LP),
    lps.length = total →
    (∀ n, fs .node (node + n) = (rest[n]?).map (fun ts => renderList ts ++ ['\n'])) →
    (∀ ts ∈ rest, ts ≠ [] ∧ (∀ t ∈ ts, t.Ok (total - 1)) ∧ (renderList ts).length ≤ 198) →
    ∃ lps', setNodes riscv fs (rest.length + 1) node lps = .ok lps' ∧
      ∀ i, (lpAt lps' i).node = lastNode (rest.map (fun ts => (ts.map Term.cpus).flatten)) node i (lpAt lps i).node
  | [], node, lps, _, hfs, _ => by
    have := hfs 0
    simp only [Nat.add_zero, List.getElem?_nil, Option.map_none] at this
    refine ⟨lps, ?_, fun _ => rfl⟩
    unfold setNodes readSysfs
    rw [this]
    rfl
  | ts :: rest, node, lps, hlen, hfs, hok => by
    obtain ⟨t1, t2, t3⟩ := hok ts (by simp)
    have h := hfs 0
    simp only [Nat.add_zero, List.getElem?_cons_zero, Option.map_some] at h
    have hl : (renderList ts ++ ['\n']).length ≤ 199 := by simp; omega
    have eb : renderList ts ++ ['\n'] ++ ['\x00'] = renderList ts ++ ['\n', '\x00'] := by simp
    have hex := C37_expand riscv ts t1 (total - 1) t2 ['\n', '\x00'] ⟨[], Or.inr rfl⟩ (renderList ts ++ ['\n', '\x00']).length
      (by simp) (by simp)
    have hb : ∀ x ∈ (ts.map Term.cpus).flatten, x < lps.length := by
      intro x hx
      rw [List.mem_flatten] at hx
      obtain ⟨l, hl, hx⟩ := hx
      rw [List.mem_map] at hl
      obtain ⟨t, ht, rfl⟩ := hl
      have := t2 t ht
      rw [hlen]
      cases t with
      | one n =>
        simp [Term.cpus] at hx
        have := this.2.2
        omega
      | range a b =>
        simp only [Term.cpus, List.mem_map, List.mem_range] at hx
        obtain ⟨k, hk, rfl⟩ := hx
        have := this.2.1.2.2
        omega
    obtain ⟨lps1, e1⟩ := setNode_ok node _ lps hb
    obtain ⟨s1, s2⟩ := setNode_inv node _ lps lps1 e1
    obtain ⟨lps', e2, e3⟩ := setNodes_ok riscv fs total h0 rest (node + 1) lps1 (by rw [s1.1, hlen])
      (fun n => by
        have := hfs (n + 1)
        rw [show node + (n + 1) = node + 1 + n by omega] at this
        simpa using this)
      (fun x hx => hok x (by simp [hx]))
    refine ⟨lps', ?_, ?_⟩
    · rw [List.length_cons, setNodes]
      unfold readSysfs
      rw [h]
      simp only
      rw [C44_read [] _ hl]
      show (do
        let list ← expandList riscv (renderList ts ++ ['\n'] ++ ['\x00']) (renderList ts ++ ['\n'] ++ ['\x00']).length (lps.length - 1)
        let lps ← setNode node list lps
        setNodes riscv fs (rest.length + 1) (node + 1) lps) = _
      rw [eb, hlen, hex, ok_bind', e1, ok_bind']
      exact e2
    · intro i
      rw [e3, List.map_cons, lastNode, s2]

theorem cacheKib_ok {fs : Sysfs} {key : Key} {lp : Nat} {o : Option (Numeral × List Char)}
    (h : fs key lp = o.map sizeFile ∧ ∀ n, o = some n → Digits9 n.1 ∧ suffixUnit n.2 ≠ none) :
    cacheKib fs key lp 0 = .ok (kib o) := by
  unfold cacheKib
  cases o with
  | none =>
    have : readNumber fs key lp = .ok none := by
      unfold readNumber readSysfs
      rw [h.1]
      rfl
    rw [this]
    rfl
  | some n =>
    obtain ⟨d, s⟩ := h.2 n rfl
    rw [readNumber_size h.1 d s]
    rfl

theorem populate_kib (lps : List LP) : ∀ (todo n : Nat) (ps ps' : List Package),
    (∀ P ∈ ps, ∀ C ∈ P.clusters, C.privateKib = 0 ∧ C.sharedKib = 0) → populate lps todo n ps = .ok ps' →
    ∀ P ∈ ps', ∀ C ∈ P.clusters, C.privateKib = 0 ∧ C.sharedKib = 0
  | 0, _, ps, ps', h0, h => by
    cases h
    exact h0
  | todo + 1, n, ps, ps', h0, h => by
    unfold populate at h
    obtain ⟨l, h1, h⟩ := bind_ok h
    obtain ⟨P, h2, h⟩ := bind_ok h
    by_cases hk : kMaxLogicalProcessors ≤ n
    · rw [if_pos hk] at h; cases h
    rw [if_neg hk] at h
    obtain ⟨cl, h3, h⟩ := bind_ok h
    obtain ⟨cls, h4, h⟩ := bind_ok h
    obtain ⟨co, h5, h⟩ := bind_ok h
    obtain ⟨cos, h6, h⟩ := bind_ok h
    obtain ⟨ps1, h7, h⟩ := bind_ok h
    obtain ⟨w1, rfl⟩ := write_ok h4
    obtain ⟨w2, rfl⟩ := write_ok h6
    obtain ⟨w3, rfl⟩ := write_ok h7
    refine populate_kib lps todo (n + 1) _ ps' ?_ h
    intro Q hQ C hC
    have hP := List.mem_of_getElem? (read_ok h2)
    rcases List.mem_or_eq_of_mem_set hQ with hQ | rfl
    · exact h0 Q hQ C hC
    · rcases List.mem_or_eq_of_mem_set hC with hC | rfl
      · exact h0 P hP C hC
      · exact h0 P hP cl (List.mem_of_getElem? (read_ok h3))

theorem cacheSizes_ok {m : Machine} {fs : Sysfs} (hd : Describes m fs) : ∀ (cs : List Cluster),
    (∀ c ∈ cs, c.lps ≠ [] ∧ (∀ i ∈ c.lps, i < m.total) ∧ c.privateKib = 0 ∧ c.sharedKib = 0) →
    ∃ cs', cacheSizes fs cs = .ok cs' ∧
      ∀ C ∈ cs', ∀ lp, C.lps.head? = some lp → C.privateKib = kib (m.l2 lp) ∧ C.sharedKib = kib (m.l3 lp)
  | [], _ => ⟨[], rfl, by simp⟩
  | c :: cs, h => by
    obtain ⟨cs', e1, e2⟩ := cacheSizes_ok hd cs (fun x hx => h x (by simp [hx]))
    obtain ⟨h1, h2, h3, h4⟩ := h c (by simp)
    unfold cacheSizes
    cases hc : c.lps with
    | nil => exact absurd hc h1
    | cons lp rest =>
      have hlp := h2 lp (by rw [hc]; simp)
      simp only
      rw [h3, h4, cacheKib_ok (hd.l2 lp hlp), ok_bind', cacheKib_ok (hd.l3 lp hlp), ok_bind', e1, ok_bind']
      refine ⟨_, rfl, ?_⟩
      intro C hC lp' hlp'
      rw [List.mem_cons] at hC
      rcases hC with rfl | hC
      · simp at hlp'
        subst hlp'
        exact ⟨rfl, rfl⟩
      · exact e2 C hC lp' hlp'

theorem setCache_ok {m : Machine} {fs : Sysfs} (hd : Describes m fs) : ∀ (ps : List Package),
    (∀ P ∈ ps, ∀ c ∈ P.clusters, c.lps ≠ [] ∧ (∀ i ∈ c.lps, i < m.total) ∧ c.privateKib = 0 ∧ c.sharedKib = 0) →
    ∃ ps', setClusterCacheSizes fs ps = .ok ps' ∧
      ∀ P ∈ ps', ∀ C ∈ P.clusters, ∀ lp, C.lps.head? = some lp → C.privateKib = kib (m.l2 lp) ∧ C.sharedKib = kib (m.l3 lp)
  | [], _ => ⟨[], rfl, by simp⟩
  | p :: ps, h => by
    obtain ⟨ps', e1, e2⟩ := setCache_ok hd ps (fun x hx => h x (by simp [hx]))
    obtain ⟨cs', f1, f2⟩ := cacheSizes_ok hd p.clusters (h p (by simp))
    unfold setClusterCacheSizes
    rw [f1, ok_bind', e1, ok_bind']
    refine ⟨_, rfl, ?_⟩
    intro P hP
    rw [List.mem_cons] at hP
    rcases hP with rfl | hP
    · exact f2
    · exact e2 P hP

theorem Consistent.congr {T : Topology} {total : Nat} {pid pid' cid cid' : Nat → Nat} {kid kid' : Nat → Option Nat}
    (h : Consistent T total pid cid kid)
    (e : ∀ i, i < total → pid i = pid' i ∧ cid i = cid' i ∧ kid i = kid' i) : Consistent T total pid' cid' kid' where
  len := h.len
  package i j hi hj := by rw [← (e i hi).1, ← (e j hj).1]; exact h.package i j hi hj
  core i j hi hj hp := by
    rw [← (e i hi).1, ← (e j hj).1] at hp
    rw [← (e i hi).2.1, ← (e j hj).2.1]
    exact h.core i j hi hj hp
  cluster i j x y hi hj hp hx hy := by
    rw [← (e i hi).1, ← (e j hj).1] at hp
    rw [← (e i hi).2.2] at hx
    rw [← (e j hj).2.2] at hy
    exact h.cluster i j x y hi hj hp hx hy
  noCluster i hi hx := by
    rw [← (e i hi).2.2] at hx
    exact h.noCluster i hi hx
  bounds := h.bounds
  clusterSet := h.clusterSet
  coreSet := h.coreSet
  smt := h.smt
  packages := h.packages

theorem lastNode_none : ∀ (ls : List (List Nat)) (base i d : Nat), (∀ l ∈ ls, i ∉ l) → lastNode ls base i d = d
  | [], _, _, _, _ => rfl
  | l :: ls, base, i, d, h => by
    rw [lastNode, if_neg (h l (by simp))]
    exact lastNode_none ls _ i d (fun x hx => h x (by simp [hx]))

theorem lastNode_some : ∀ (ls : List (List Nat)) (base i d n : Nat) (l : List Nat), ls[n]? = some l → i ∈ l →
    (∀ (n' : Nat) (l' : List Nat), n < n' → ls[n']? = some l' → i ∉ l') → lastNode ls base i d = (base + n) % 256
  | [], _, _, _, n, l, h, _, _ => by simp at h
  | x :: ls, base, i, d, 0, l, h, hi, hn => by
    simp at h
    subst h
    rw [lastNode, if_pos hi]
    refine lastNode_none ls _ i _ ?_
    intro y hy
    obtain ⟨k, hk⟩ := List.getElem?_of_mem hy
    exact hn (k + 1) y (by omega) (by simpa using hk)
  | x :: ls, base, i, d, n + 1, l, h, hi, hn => by
    rw [lastNode, lastNode_some ls (base + 1) i _ n l (by simpa using h) hi
      (fun n' l' h1 h2 => hn (n' + 1) l' (by omega) (by simpa using h2))]
    congr 1
    omega

theorem detect1_node (fs : Sysfs) : ∀ (todo lp : Nat) (packages packages' : Remapper) (lps lps' : List LP),
    detect1 fs todo lp packages lps = .ok (some (packages', lps')) → ∀ i, (lpAt lps' i).node = (lpAt lps i).node
  | 0, lp, packages, packages', lps, lps', h, i => by
    cases h
    rfl
  | todo + 1, lp, packages, packages', lps, lps', h, i => by
    unfold detect1 at h
    obtain ⟨o, h1, h⟩ := bind_ok h
    cases o with
    | none => cases h
    | some o =>
      simp only at h
      obtain ⟨l, h2, h⟩ := bind_ok h
      obtain ⟨lps1, h3, h⟩ := bind_ok h
      obtain ⟨w, rfl⟩ := write_ok h3
      rw [detect1_node fs todo (lp + 1) _ _ _ _ h i, lpAt_set w]
      split
      · rename_i e
        rw [e, lpAt_of_get (read_ok h2)]
      · rfl

theorem detect2_node (fs : Sysfs) : ∀ (todo lp : Nat) (pps pps' : List PerPackage) (lps lps' : List LP),
    detect2 fs todo lp pps lps = .ok (some (pps', lps')) → ∀ i, (lpAt lps' i).node = (lpAt lps i).node
  | 0, lp, pps, pps', lps, lps', h, i => by
    cases h
    rfl
  | todo + 1, lp, pps, pps', lps, lps', h, i => by
    unfold detect2 at h
    obtain ⟨l, h1, h⟩ := bind_ok h
    obtain ⟨pp, h2, h⟩ := bind_ok h
    obtain ⟨⟨pp1, cluster⟩, h3, h⟩ := bind_ok h
    simp only at h
    obtain ⟨o, h4, h⟩ := bind_ok h
    cases o with
    | none => cases h
    | some o =>
    obtain ⟨r1, core⟩ := o
    simp only at h
    by_cases hc : kMaxLogicalProcessors ≤ core
    · rw [if_pos hc] at h; cases h
    rw [if_neg hc] at h
    obtain ⟨smt, h5, h⟩ := bind_ok h
    obtain ⟨spc, h6, h⟩ := bind_ok h
    by_cases h16 : 16 ≤ smt
    · rw [if_pos h16] at h; cases h
    rw [if_neg h16] at h
    obtain ⟨pps1, h7, h⟩ := bind_ok h
    obtain ⟨lps1, h8, h⟩ := bind_ok h
    obtain ⟨w, rfl⟩ := write_ok h8
    rw [detect2_node fs todo (lp + 1) _ _ _ _ h i, lpAt_set w]
    split
    · rename_i e
      rw [e, lpAt_of_get (read_ok h1)]
    · rfl

theorem detectPackages_node {fs : Sysfs} {lps0 lps : List LP} {sizes : List PackageSizes}
    (h : detectPackages fs lps0 = .ok (some (sizes, lps))) (i : Nat) : (lpAt lps i).node = (lpAt lps0 i).node := by
  unfold detectPackages at h
  obtain ⟨o, g1, h1⟩ := bind_ok h
  cases o with
  | none => cases h1
  | some o =>
  obtain ⟨packages, lps1⟩ := o
  simp only at h1
  by_cases hp0 : packages.num = 0
  · rw [if_pos hp0] at h1; cases h1
  rw [if_neg hp0] at h1
  obtain ⟨o, g2, h1⟩ := bind_ok h1
  cases o with
  | none => cases h1
  | some o =>
  obtain ⟨pps, lps2⟩ := o
  simp only at h1
  obtain ⟨sz, g3, h1⟩ := bind_ok h1
  cases h1
  rw [detect2_node fs _ _ _ _ _ _ g2 i, detect1_node fs _ _ _ _ _ _ g1 i]

/-- What is detected for a machine. -/
structure Detects (m : Machine) (T : Topology) : Prop where
  /-- Packages, clusters, cores and SMT are those of the machine. -/
  consistent : Consistent T m.total (fun i => (m.pkg i).value) (fun i => (m.core i).value)
    (fun i => (m.cluster i).map Numeral.value)
  /-- Each processor has the number of the (last) node that lists it. -/
  node : ∀ i n l, i < m.total → m.nodeCpus[n]? = some l → i ∈ l →
    (∀ (n' : Nat) (l' : List Nat), n < n' → m.nodeCpus[n']? = some l' → i ∉ l') → (lpAt T.lps i).node = n % 256
  /-- Node 0 if none lists it. -/
  noNode : ∀ i, i < m.total → (∀ l ∈ m.nodeCpus, i ∉ l) → (lpAt T.lps i).node = 0
  /-- Cache sizes of a cluster are those of its first processor. -/
  caches : ∀ P ∈ T.packages, ∀ C ∈ P.clusters, ∀ lp, C.lps.head? = some lp →
    C.privateKib = kib (m.l2 lp) ∧ C.sharedKib = kib (m.l3 lp)

/-- C43: the topology of every machine within the limits is detected, and is the machine's. -/
theorem C43_detects (riscv : Bool) (m : Machine) (fs : Sysfs) (hd : Describes m fs) (hl : Limits m) :
    ∃ T, topology riscv fs m.total m.nodes.length = .ok T ∧ Detects m T := by
  have hpid : ∀ i, i < m.total → readNumber fs .package i = .ok (some (m.pkg i).value) :=
    fun i hi => readNumber_num (hd.package i hi).1 (hd.package i hi).2
  have hcid : ∀ i, i < m.total → readNumber fs .core i = .ok (some (m.core i).value) :=
    fun i hi => readNumber_num (hd.core i hi).1 (hd.core i hi).2
  have hkid : ∀ i, i < m.total → readNumber fs .cluster i = .ok ((m.cluster i).map Numeral.value) := by
    intro i hi
    obtain ⟨h1, h2⟩ := hd.cluster i hi
    cases hc : m.cluster i with
    | none =>
      rw [hc] at h1
      unfold readNumber readSysfs
      rw [h1]
      rfl
    | some n =>
      rw [hc] at h1
      exact readNumber_num h1 (h2 n hc)
  obtain ⟨L, hL, hpL⟩ := hl.packages
  obtain ⟨⟨sizes, lps3⟩, h1⟩ := detectPackages_ok hl.pos hl.total L hL hpL hpid hcid hkid hl.smt
  have d := detectPackages_detected h1
  have node0 : ∀ i, (lpAt lps3 i).node = 0 := by
    intro i
    rw [detectPackages_node h1 i]
    unfold lpAt List.getD
    rw [List.getElem?_replicate]
    split <;> rfl
  obtain ⟨lps4, h4, n4⟩ := setNodes_ok riscv fs m.total hl.pos m.nodes 0 lps3 d.len
    (fun n => by rw [Nat.zero_add]; exact hd.node n) hd.nodeOk
  have d4 := d.sameButNode (setNodes_inv riscv fs _ _ _ _ h4)
  obtain ⟨ps5, h5⟩ := populate_ok d4 hl.total m.total 0 _ (by omega) (inv3_init lps4 sizes)
  have inv3 := populate_inv lps4 sizes _ _ _ _ (inv3_init lps4 sizes) h5
  rw [Nat.zero_add] at inv3
  have hk := populate_kib lps4 _ _ _ _ (by
    intro P hP C hC
    rw [List.mem_map] at hP
    obtain ⟨s, _, rfl⟩ := hP
    simp only [List.mem_replicate] at hC
    rw [hC.2]
    exact ⟨rfl, rfl⟩) h5
  obtain ⟨ps6, h6, c6⟩ := setCache_ok hd ps5 (by
    intro P hP C hC
    refine ⟨clusters_nonempty d4 inv3 P hP C hC, ?_, hk P hP C hC⟩
    intro i hi
    obtain ⟨p, hp⟩ := List.getElem?_of_mem hP
    obtain ⟨c, hc⟩ := List.getElem?_of_mem hC
    rw [inv3.cl p P c C hp hc, members_mem] at hi
    exact hi.1)
  have hT : topology riscv fs m.total m.nodes.length = .ok ⟨ps6, lps4⟩ := by
    unfold topology
    rw [h1, ok_bind']
    simp only
    rw [h4, ok_bind', d4.len, h5, ok_bind', h6, ok_bind']
    rfl
  have hne : ps6 ≠ [] := by
    intro e
    have := congrArg List.length (setCache_inv fs _ _ h6)
    rw [e] at this
    simp at this
    have h := inv3.len
    rw [← this] at h
    exact d.ne (List.eq_nil_of_length_eq_zero h.symm)
  refine ⟨_, hT, ?_, ?_, ?_, c6⟩
  · obtain ⟨pid, cid, kid, e, c⟩ := C43_consistent_any riscv fs m.total m.nodes.length _ hT hne
    refine c.congr ?_
    intro i hi
    obtain ⟨e1, e2, e3⟩ := e i hi
    rw [hpid i hi] at e1
    rw [hcid i hi] at e2
    rw [hkid i hi] at e3
    exact ⟨(Option.some.inj (Except.ok.inj e1)).symm, (Option.some.inj (Except.ok.inj e2)).symm, (Except.ok.inj e3).symm⟩
  · intro i n l hi hn hil hlast
    show (lpAt lps4 i).node = _
    rw [n4, show (m.nodes.map fun ts => (ts.map Term.cpus).flatten) = m.nodeCpus from rfl, lastNode_some m.nodeCpus 0 i _ n l hn hil hlast, Nat.zero_add]
  · intro i hi hno
    show (lpAt lps4 i).node = _
    rw [n4, show (m.nodes.map fun ts => (ts.map Term.cpus).flatten) = m.nodeCpus from rfl, lastNode_none m.nodeCpus 0 i _ hno]
    exact node0 i

/-- Non-vacuity: two packages with two cores of two processors each, two nodes, "512K" and "16M" caches, no clusters. -/
def exampleMachine : Machine where
  total := 8
  pkg i := if i % 4 < 2 then [0] else [7]
  core i := if i % 2 = 0 then [1, 0] else [1, 2]
  cluster _ := none
  nodes := [[.range [0] [1], .range [4] [5]], [.range [2] [3], .range [6] [7]]]
  l2 _ := some ([5, 1, 2], ['K'])
  l3 _ := some ([1, 6], ['M'])

def Machine.sysfs (m : Machine) : Sysfs
  | .package, i => some (numFile (m.pkg i))
  | .core, i => some (numFile (m.core i))
  | .cluster, i => (m.cluster i).map numFile
  | .node, n => (m.nodes[n]?).map (fun ts => renderList ts ++ ['\n'])
  | .l2, i => (m.l2 i).map sizeFile
  | .l3, i => (m.l3 i).map sizeFile

theorem C43_nonvacuous : Describes exampleMachine exampleMachine.sysfs ∧ Limits exampleMachine := by
  constructor
  · refine ⟨fun i _ => ⟨rfl, ?_⟩, fun i _ => ⟨rfl, ?_⟩, fun i _ => ⟨rfl, ?_⟩, fun n => rfl, ?_, fun i _ => ⟨rfl, ?_⟩, fun i _ => ⟨rfl, ?_⟩⟩
    · simp only [exampleMachine]; split <;> exact ⟨by decide, by decide⟩
    · simp only [exampleMachine]; split <;> exact ⟨by decide, by decide⟩
    · intro n hn; cases hn
    · intro ts hts
      simp only [exampleMachine, List.mem_cons, List.not_mem_nil, or_false] at hts
      rcases hts with rfl | rfl
      · refine ⟨by simp, ?_, by decide⟩
        intro t ht
        simp only [List.mem_cons, List.not_mem_nil, or_false] at ht
        rcases ht with rfl | rfl <;>
          exact ⟨⟨by decide, by decide, by decide⟩, ⟨by decide, by decide, by decide⟩, by decide⟩
      · refine ⟨by simp, ?_, by decide⟩
        intro t ht
        simp only [List.mem_cons, List.not_mem_nil, or_false] at ht
        rcases ht with rfl | rfl <;>
          exact ⟨⟨by decide, by decide, by decide⟩, ⟨by decide, by decide, by decide⟩, by decide⟩
    · intro n hn; cases hn; exact ⟨⟨by decide, by decide⟩, by decide⟩
    · intro n hn; cases hn; exact ⟨⟨by decide, by decide⟩, by decide⟩
  · refine ⟨by decide, by decide, ⟨[0, 7], by decide, ?_⟩, ?_⟩
    · intro i _
      simp only [exampleMachine]
      split <;> decide
    · intro i hi
      have h1 : ((List.range i).filter (fun j => (exampleMachine.pkg j).value = (exampleMachine.pkg i).value ∧
          (exampleMachine.core j).value = (exampleMachine.core i).value)).length ≤ (List.range i).length :=
        List.length_filter_le _ _
      rw [List.length_range] at h1
      have : exampleMachine.total = 8 := rfl
      omega

end Topo
end Hwy
