import Verif.TopologyDetect

/-!
# C43: no contents of sysfs cause undefined behaviour
-/

namespace Hwy
namespace Topo

/-- No undefined behaviour. -/
def NoUB {α : Type} (x : M α) : Prop := x ≠ .error .ub

theorem noUB_ok {α : Type} (a : α) : NoUB (.ok a : M α) := by simp [NoUB]

theorem noUB_pure {α : Type} (a : α) : NoUB (pure a : M α) := noUB_ok a

theorem noUB_abort {α : Type} : NoUB (.error .abort : M α) := by simp [NoUB]

theorem noUB_bind {α β : Type} {x : M α} {f : α → M β} (h1 : NoUB x) (h2 : ∀ a, x = .ok a → NoUB (f a)) : NoUB (x >>= f) := by
  cases x with
  | ok a => exact h2 a rfl
  | error e =>
    cases e
    · exact absurd rfl h1
    · exact noUB_abort

theorem noUB_ite {α : Type} {c : Prop} [Decidable c] {x y : M α} (h1 : c → NoUB x) (h2 : ¬ c → NoUB y) :
    NoUB (if c then x else y) := by
  split
  · exact h1 ‹_›
  · exact h2 ‹_›

theorem noUB_read {α : Type} {a : List α} {i : Nat} (h : i < a.length) : NoUB (readAt a i) := by
  rw [readAt_of_lt h]; exact noUB_ok _

theorem noUB_write {α : Type} {a : List α} {i : Nat} (x : α) (h : i < a.length) : NoUB (writeAt a i x) := by
  rw [writeAt_of_lt x h]; exact noUB_ok _

/-! ### Parsing -/

/-- Ends with a terminator. -/
def Z (s : List Char) : Prop := ∃ c, s = c ++ ['\x00']

theorem Z.split {a rest : List Char} (h : Z (a ++ rest)) (ha : '\x00' ∉ a) : Z rest := by
  obtain ⟨c, hc⟩ := h
  rcases List.eq_nil_or_concat rest with rfl | ⟨r, x, rfl⟩
  · rw [List.append_nil] at hc
    subst hc
    simp at ha
  · rw [List.concat_eq_append, ← List.append_assoc] at hc
    have := List.append_inj_right' hc rfl
    exact ⟨r, by rw [List.concat_eq_append, this]⟩

theorem Z.cons {s : List Char} (h : Z s) : ∃ c r, s = c :: r := by
  obtain ⟨c, rfl⟩ := h
  cases c with
  | nil => exact ⟨_, _, rfl⟩
  | cons x c => exact ⟨_, _, rfl⟩

theorem Z.tail {c : Char} {s : List Char} (h : Z (c :: s)) (hc : c ≠ '\x00') : Z s :=
  Z.split (a := [c]) h (by simp; exact fun e => hc e.symm)

theorem zero_not_mem_render (ds : Numeral) : '\x00' ∉ ds.render := fun h => (render_ne0 ds _ h).2.2.1 rfl

theorem digitsLoop_noUB : ∀ (n : Nat) (s : List Char) (used out : Nat), n ≤ s.length → NoUB (digitsLoop n s used out)
  | 0, s, used, out, _ => noUB_ok _
  | n + 1, [], _, _, h => by simp at h
  | n + 1, c :: s, used, out, h => by
    unfold digitsLoop
    exact noUB_ite (fun _ => digitsLoop_noUB n s _ _ (by simpa using h)) (fun _ => noUB_ok _)

theorem parseDigits_noUB (str : List Char) (end_ pos : Nat) (h : end_ ≤ str.length) : NoUB (parseDigits str end_ pos) := by
  unfold parseDigits
  refine noUB_ite (fun hp => ?_) (fun _ => noUB_abort)
  refine noUB_bind (digitsLoop_noUB _ _ _ _ (by rw [List.length_drop]; omega)) ?_
  intro a _
  obtain ⟨used, out⟩ := a
  exact noUB_ite (fun _ => noUB_pure _) (fun _ => noUB_pure _)

theorem readAt_noUB_mid {pre s : List Char} (hs : Z s) (n : Nat) (hn : n = pre.length) : NoUB (readAt (pre ++ s) n) := by
  obtain ⟨c, r, rfl⟩ := hs.cons
  rw [readAt_mid _ _ _ _ hn]
  exact noUB_ok _

theorem parseNumber_noUB (buf : List Char) (h : Z buf) : NoUB (parseNumber buf buf.length) := by
  unfold parseNumber
  refine noUB_bind (parseDigits_noUB _ _ _ (by omega)) ?_
  rintro ⟨ok, pos, out⟩ h1
  simp only
  refine noUB_ite (fun _ => noUB_pure _) (fun hok => ?_)
  rcases parseDigits_inv [] buf buf.length pos ok out h1 with rfl | ⟨ds, rest, e1, _, e3, _⟩
  · simp at hok
  rw [e1] at h ⊢
  have hz := h.split (zero_not_mem_render ds)
  have hpos : pos = ds.render.length := by rw [e3]; simp [Numeral.render]
  obtain ⟨c, r, rfl⟩ := hz.cons
  rw [readAt_mid _ _ _ _ hpos, ok_bind']
  -- after an optional K
  have last : ∀ (pre s : List Char) (n o : Nat), Z s → n = pre.length →
      NoUB (do
        let c ← readAt (pre ++ s) n
        if c ≠ '\x00' ∧ c ≠ '\n' then .error .abort else return some o : M (Option Nat)) := by
    intro pre s n o hs hn
    refine noUB_bind (readAt_noUB_mid hs n hn) ?_
    intro c _
    exact noUB_ite (fun _ => noUB_abort) (fun _ => noUB_pure _)
  have mid : ∀ (pre s : List Char) (n o : Nat), Z s → n = pre.length →
      NoUB (do
        let c ← readAt (pre ++ s) n
        let (out, pos) := if c = 'M' then (o * 2 ^ 20, n + 1) else (o, n)
        let c ← readAt (pre ++ s) pos
        if c ≠ '\x00' ∧ c ≠ '\n' then .error .abort else return some out : M (Option Nat)) := by
    intro pre s n o hs hn
    obtain ⟨c, r, rfl⟩ := hs.cons
    rw [readAt_mid _ _ _ _ hn, ok_bind']
    by_cases hc : c = 'M'
    · subst hc
      rw [if_pos rfl, show pre ++ 'M' :: r = (pre ++ ['M']) ++ r by simp]
      exact last _ r _ _ (hs.tail (by decide)) (by simp [hn])
    · rw [if_neg hc]
      exact last _ _ _ _ hs hn
  by_cases hc : c = 'K'
  · subst hc
    rw [if_pos rfl, show ds.render ++ 'K' :: r = (ds.render ++ ['K']) ++ r by simp]
    exact mid _ r _ _ (hz.tail (by decide)) (by simp [hpos])
  · rw [if_neg hc]
    exact mid _ _ _ _ hz hpos

theorem strchr_noUB (c : Char) : ∀ (s : List Char), Z s → NoUB (strchr c s)
  | [], h => by obtain ⟨_, _, e⟩ := h.cons; cases e
  | x :: s, h => by
    unfold strchr
    refine noUB_ite (fun _ => noUB_ok _) (fun _ => noUB_ite (fun _ => noUB_ok _) (fun hx => ?_))
    exact noUB_bind (strchr_noUB c s (h.tail hx)) (fun _ _ => noUB_pure _)

theorem find_noUB (pre s : List Char) (listEnd : Nat) (c : Char) (h : Z s) :
    NoUB (find (pre ++ s) listEnd pre.length c) := by
  unfold find
  rw [List.drop_left]
  refine noUB_bind (strchr_noUB c s h) ?_
  intro k _
  cases k with
  | none => exact noUB_pure _
  | some k => exact noUB_ite (fun _ => noUB_pure _) (fun _ => noUB_abort)

theorem parseLp_safe (riscv : Bool) (pre s : List Char) (listEnd maxLp : Nat) (end_ : Option Nat)
    (hl : listEnd ≤ (pre ++ s).length) :
    NoUB (parseLp riscv (pre ++ s) listEnd maxLp end_ pre.length) ∧
    ∀ lp pos, parseLp riscv (pre ++ s) listEnd maxLp end_ pre.length = .ok (lp, pos) →
      ∃ (ds : Numeral) (rest : List Char), s = ds.render ++ rest ∧ pos = pre.length + ds.length ∧ lp ≤ maxLp := by
  have key : ∀ e, e ≤ listEnd →
      NoUB (do
        let __discr ← parseDigits (pre ++ s) e pre.length
        match __discr with
        | (ok, pos, lp) =>
          if (!ok) = true then Except.error Fault.abort
          else
            if maxLp < (if riscv = true then min lp maxLp else lp) then Except.error Fault.abort
            else if e < pos then Except.error Fault.abort
            else pure (if riscv = true then min lp maxLp else lp, pos) : M (Nat × Nat)) ∧
      ∀ lp pos, (do
        let __discr ← parseDigits (pre ++ s) e pre.length
        match __discr with
        | (ok, pos, lp) =>
          if (!ok) = true then Except.error Fault.abort
          else
            if maxLp < (if riscv = true then min lp maxLp else lp) then Except.error Fault.abort
            else if e < pos then Except.error Fault.abort
            else pure (if riscv = true then min lp maxLp else lp, pos) : M (Nat × Nat)) = .ok (lp, pos) →
      ∃ (ds : Numeral) (rest : List Char), s = ds.render ++ rest ∧ pos = pre.length + ds.length ∧ lp ≤ maxLp := by
    intro e hel
    constructor
    · refine noUB_bind (parseDigits_noUB _ _ _ (by omega)) ?_
      rintro ⟨ok, pos, lp⟩ _
      exact noUB_ite (fun _ => noUB_abort) (fun _ => noUB_ite (fun _ => noUB_abort)
        (fun _ => noUB_ite (fun _ => noUB_abort) (fun _ => noUB_pure _)))
    · intro lp pos h
      obtain ⟨⟨ok, pos1, lp1⟩, h1, h2⟩ := bind_ok h
      simp only at h2
      rcases parseDigits_inv pre s e pos1 ok lp1 h1 with rfl | ⟨ds, rest, e1, e2, e3, e4, e5, e6⟩
      · simp at h2
      · cases ok
        · simp at h2
        · simp only [Bool.not_true, Bool.false_eq_true, if_false] at h2
          by_cases hm : maxLp < (if riscv = true then min lp1 maxLp else lp1)
          · rw [if_pos hm] at h2
            cases h2
          · rw [if_neg hm, if_neg (by omega)] at h2
            cases h2
            exact ⟨ds, rest, e1, e3, by omega⟩
  unfold parseLp
  rcases end_ with _ | i
  · exact key listEnd (by omega)
  · exact key (min i listEnd) (by omega)

theorem expandTerm_safe (riscv : Bool) (pre s : List Char) (listEnd maxLp : Nat) (expanded : List Nat)
    (hl : listEnd ≤ (pre ++ s).length) (hz : Z s) :
    NoUB (expandTerm riscv (pre ++ s) listEnd maxLp expanded pre.length) ∧
    ∀ v pos, expandTerm riscv (pre ++ s) listEnd maxLp expanded pre.length = .ok (v, pos) → (∀ x ∈ expanded, x ≤ maxLp) →
      (∀ x ∈ v, x ≤ maxLp) ∧ ∃ pre' rest, pre ++ s = pre' ++ rest ∧ pos = pre'.length ∧ Z rest := by
  obtain ⟨p1, p2⟩ : True ∧ True := ⟨trivial, trivial⟩
  constructor
  · unfold expandTerm
    refine noUB_bind (find_noUB _ _ _ _ hz) (fun k1 _ => noUB_bind (find_noUB _ _ _ _ hz) (fun k2 _ => ?_))
    obtain ⟨q1, q2⟩ := parseLp_safe riscv pre s listEnd maxLp (minFound k1 k2) hl
    refine noUB_bind q1 ?_
    rintro ⟨first, pos1⟩ h1
    obtain ⟨a, r1, e1, e2, e3⟩ := q2 first pos1 h1
    have hz1 := (e1 ▸ hz).split (zero_not_mem_render a)
    have hp : pos1 = (pre ++ a.render).length := by simp [e2, Numeral.render]
    have es : pre ++ s = (pre ++ a.render) ++ r1 := by rw [e1, List.append_assoc]
    obtain ⟨c, r2, rfl⟩ := hz1.cons
    simp only
    rw [es, readAt_mid _ _ _ _ hp, ok_bind']
    refine noUB_ite (fun hc => ?_) (fun _ => noUB_pure _)
    subst hc
    have hz2 := hz1.tail (by decide)
    have hp2 : pos1 + 1 = (pre ++ a.render ++ ['-']).length := by rw [hp]; simp; omega
    have es2 : pre ++ a.render ++ '-' :: r2 = (pre ++ a.render ++ ['-']) ++ r2 := by simp
    rw [es2, hp2]
    refine noUB_bind (find_noUB _ _ _ _ hz2) (fun k3 _ => ?_)
    obtain ⟨q3, q4⟩ := parseLp_safe riscv (pre ++ a.render ++ ['-']) r2 listEnd maxLp k3 (by rw [← es2, ← es]; exact hl)
    refine noUB_bind q3 ?_
    rintro ⟨last, pos2⟩ _
    exact noUB_ite (fun _ => noUB_abort) (fun _ => noUB_pure _)
  · intro v pos h hx
    unfold expandTerm at h
    obtain ⟨k1, _, h⟩ := bind_ok h
    obtain ⟨k2, _, h⟩ := bind_ok h
    obtain ⟨⟨first, pos1⟩, h1, h⟩ := bind_ok h
    obtain ⟨a, r1, e1, e2, e3⟩ := (parseLp_safe riscv pre s listEnd maxLp _ hl).2 first pos1 h1
    have hz1 := (e1 ▸ hz).split (zero_not_mem_render a)
    have hp : pos1 = (pre ++ a.render).length := by simp [e2, Numeral.render]
    have es : pre ++ s = (pre ++ a.render) ++ r1 := by rw [e1, List.append_assoc]
    simp only at h
    obtain ⟨c, hc, h⟩ := bind_ok h
    rw [es] at hc
    obtain ⟨r2, rfl⟩ := readAt_inv (pre ++ a.render) r1 c pos1 hp hc
    by_cases hd : c = '-'
    · rw [if_pos hd] at h
      subst hd
      obtain ⟨k3, _, h⟩ := bind_ok h
      obtain ⟨⟨last, pos2⟩, h2, h⟩ := bind_ok h
      have hz2 := hz1.tail (by decide)
      have hp2 : pos1 + 1 = (pre ++ a.render ++ ['-']).length := by rw [hp]; simp; omega
      have es2 : pre ++ s = (pre ++ a.render ++ ['-']) ++ r2 := by rw [es]; simp
      rw [es2, hp2] at h2
      obtain ⟨b, r3, f1, f2, f3⟩ := (parseLp_safe riscv _ r2 listEnd maxLp _ (by rw [← es2]; exact hl)).2 last pos2 h2
      simp only at h
      by_cases hlt : expanded.length + last + 1 < first
      · rw [if_pos hlt] at h; cases h
      · rw [if_neg hlt] at h
        cases h
        refine ⟨?_, pre ++ a.render ++ ['-'] ++ b.render, r3, by rw [es2, f1]; simp, by rw [f2]; simp [Numeral.render]; omega,
          (f1 ▸ hz2).split (zero_not_mem_render b)⟩
        intro x hx'
        rw [List.mem_append] at hx'
        rcases hx' with hx' | hx'
        · exact hx x hx'
        · rw [List.mem_map] at hx'
          obtain ⟨k, hk, rfl⟩ := hx'
          rw [List.mem_range] at hk
          omega
    · rw [if_neg hd] at h
      cases h
      refine ⟨?_, pre ++ a.render, c :: r2, es, hp, hz1⟩
      intro x hx'
      rw [List.mem_append, List.mem_singleton] at hx'
      rcases hx' with hx' | rfl
      · exact hx x hx'
      · exact e3

theorem expandLoop_safe (riscv : Bool) (listEnd maxLp : Nat) : ∀ (fuel : Nat) (pre s : List Char) (expanded : List Nat),
    listEnd ≤ (pre ++ s).length → Z s → (∀ x ∈ expanded, x ≤ maxLp) →
    NoUB (expandLoop riscv (pre ++ s) listEnd maxLp fuel expanded pre.length) ∧
    ∀ v, expandLoop riscv (pre ++ s) listEnd maxLp fuel expanded pre.length = .ok v → ∀ x ∈ v, x ≤ maxLp
  | 0, _, _, _, _, _, _ => ⟨noUB_abort, fun v h => by cases h⟩
  | fuel + 1, pre, s, expanded, hl, hz, hx => by
    obtain ⟨q1, q2⟩ := expandTerm_safe riscv pre s listEnd maxLp expanded hl hz
    unfold expandLoop
    constructor
    · refine noUB_bind q1 ?_
      rintro ⟨v1, pos1⟩ h1
      obtain ⟨g1, pre', rest, g2, rfl, g4⟩ := q2 v1 pos1 h1 hx
      simp only
      refine noUB_ite (fun _ => noUB_pure _) (fun _ => ?_)
      obtain ⟨c, r, rfl⟩ := g4.cons
      rw [g2, readAt_mid _ _ _ _ rfl, ok_bind']
      refine noUB_ite (fun _ => noUB_pure _) (fun _ => noUB_ite (fun hc => ?_) (fun _ => noUB_abort))
      subst hc
      have es : pre' ++ ',' :: r = (pre' ++ [',']) ++ r := by simp
      have hp : pre'.length + 1 = (pre' ++ [',']).length := by simp
      rw [es, hp]
      exact (expandLoop_safe riscv listEnd maxLp fuel _ r v1 (by rw [← es, ← g2]; exact hl) (g4.tail (by decide)) g1).1
    · intro v h
      obtain ⟨⟨v1, pos1⟩, h1, h⟩ := bind_ok h
      obtain ⟨g1, pre', rest, g2, rfl, g4⟩ := q2 v1 pos1 h1 hx
      simp only at h
      split at h
      · cases h; exact g1
      · obtain ⟨c, hc, h⟩ := bind_ok h
        rw [g2] at hc
        obtain ⟨r, rfl⟩ := readAt_inv pre' rest c _ rfl hc
        split at h
        · cases h; exact g1
        · split at h
          · rename_i hcomma
            subst hcomma
            have es : pre ++ s = (pre' ++ [',']) ++ r := by rw [g2]; simp
            have hp : pre'.length + 1 = (pre' ++ [',']).length := by simp
            rw [es, hp] at h
            exact (expandLoop_safe riscv listEnd maxLp fuel _ r v1 (by rw [← es]; exact hl) (g4.tail (by decide)) g1).2 v h
          · cases h

theorem expandList_safe (riscv : Bool) (buf : List Char) (maxLp : Nat) (hz : Z buf) :
    NoUB (expandList riscv buf buf.length maxLp) ∧
    ∀ v, expandList riscv buf buf.length maxLp = .ok v → ∀ x ∈ v, x ≤ maxLp :=
  expandLoop_safe riscv buf.length maxLp _ [] buf [] (by simp) hz (by simp)

/-! ### Detection -/

/-- Every file fits into the buffer. -/
def SmallFiles (fs : Sysfs) : Prop := ∀ key lp c, fs key lp = some c → c.length ≤ 199

theorem readSysfs_safe {fs : Sysfs} (hs : SmallFiles fs) (key : Key) (lp : Nat) :
    readSysfs fs key lp = .ok ((fs key lp).map (· ++ ['\x00'])) := by
  unfold readSysfs
  cases h : fs key lp with
  | none => rfl
  | some c =>
    simp only
    rw [C44_read [] c (hs key lp c h)]
    rfl

theorem readNumber_noUB {fs : Sysfs} (hs : SmallFiles fs) (key : Key) (lp : Nat) : NoUB (readNumber fs key lp) := by
  unfold readNumber
  rw [readSysfs_safe hs, ok_bind']
  cases fs key lp with
  | none => exact noUB_pure _
  | some c => exact parseNumber_noUB _ ⟨c, rfl⟩

theorem call_noUB {fs : Sysfs} (hs : SmallFiles fs) (r : Remapper) (key : Key) (lp maxT : Nat) :
    NoUB (r.call fs key lp maxT) := by
  unfold Remapper.call
  refine noUB_bind (readNumber_noUB hs key lp) ?_
  intro o _
  cases o with
  | none => exact noUB_pure _
  | some id =>
    exact noUB_ite (fun _ => noUB_abort) (fun _ => noUB_ite (fun _ => noUB_abort) (fun _ => noUB_pure _))

theorem detect1_noUB {fs : Sysfs} (hs : SmallFiles fs) : ∀ (todo lp : Nat) (packages : Remapper) (lps : List LP),
    lp + todo ≤ lps.length → NoUB (detect1 fs todo lp packages lps)
  | 0, _, _, _, _ => noUB_ok _
  | todo + 1, lp, packages, lps, h => by
    unfold detect1
    refine noUB_bind (call_noUB hs _ _ _ _) ?_
    intro o _
    cases o with
    | none => exact noUB_pure _
    | some o =>
      refine noUB_bind (noUB_read (by omega)) (fun l _ => noUB_bind (noUB_write _ (by omega)) (fun lps1 h1 => ?_))
      obtain ⟨_, rfl⟩ := write_ok h1
      exact detect1_noUB hs todo (lp + 1) _ _ (by simp; omega)

theorem clusterOf_noUB {fs : Sysfs} (hs : SmallFiles fs) (pp : PerPackage) (lp : Nat) : NoUB (clusterOf fs pp lp) := by
  unfold clusterOf
  refine noUB_bind (call_noUB hs _ _ _ _) ?_
  intro o _
  cases o with
  | none => exact noUB_pure _
  | some o => exact noUB_pure _

theorem clusterOf_spc {fs : Sysfs} {pp pp' : PerPackage} {lp c : Nat} (h : clusterOf fs pp lp = .ok (pp', c)) :
    pp'.smtPerCore = pp.smtPerCore := by
  unfold clusterOf at h
  obtain ⟨o, _, h⟩ := bind_ok h
  cases o with
  | none => cases h; rfl
  | some o => cases h; rfl

theorem detect2_noUB {fs : Sysfs} (hs : SmallFiles fs) : ∀ (todo lp : Nat) (pps : List PerPackage) (lps : List LP),
    lp + todo ≤ lps.length → (∀ pp ∈ pps, pp.smtPerCore.length = kMaxLogicalProcessors) →
    (∀ i, i < lps.length → (lpAt lps i).package < pps.length) → NoUB (detect2 fs todo lp pps lps)
  | 0, _, _, _, _, _, _ => noUB_ok _
  | todo + 1, lp, pps, lps, h, hk, hp => by
    unfold detect2
    refine noUB_bind (noUB_read (by omega)) (fun l h1 => ?_)
    have hl := lpAt_of_get (read_ok h1)
    have hlt : l.package < pps.length := by rw [← hl]; exact hp lp (by omega)
    refine noUB_bind (noUB_read hlt) (fun pp h2 => noUB_bind (clusterOf_noUB hs _ _) ?_)
    rintro ⟨pp1, cluster⟩ h3
    simp only
    have hmem : pp ∈ pps := List.mem_of_getElem? (read_ok h2)
    have hlen : pp1.smtPerCore.length = kMaxLogicalProcessors := by rw [clusterOf_spc h3]; exact hk pp hmem
    refine noUB_bind (call_noUB hs _ _ _ _) ?_
    intro o _
    cases o with
    | none => exact noUB_pure _
    | some o =>
      obtain ⟨r, core⟩ := o
      refine noUB_ite (fun _ => noUB_abort) (fun hc => ?_)
      refine noUB_bind (noUB_read (by omega)) (fun smt _ => noUB_bind (noUB_write _ (by omega)) (fun spc h5 => ?_))
      refine noUB_ite (fun _ => noUB_abort) (fun _ => ?_)
      refine noUB_bind (noUB_write _ hlt) (fun pps1 h6 => noUB_bind (noUB_write _ (by omega)) (fun lps1 h7 => ?_))
      obtain ⟨_, rfl⟩ := write_ok h5
      obtain ⟨_, rfl⟩ := write_ok h6
      obtain ⟨w, rfl⟩ := write_ok h7
      refine detect2_noUB hs todo (lp + 1) _ _ (by simp; omega) ?_ ?_
      · intro q hq
        rcases List.mem_or_eq_of_mem_set hq with hq | rfl
        · exact hk q hq
        · simpa using hlen
      · intro i hi
        rw [lpAt_set w, List.length_set]
        split
        · exact hlt
        · exact hp i (by simpa using hi)

theorem packageSizes_noUB : ∀ (pps : List PerPackage), NoUB (packageSizes pps)
  | [] => noUB_ok _
  | pp :: pps => by
    unfold packageSizes
    exact noUB_ite (fun _ => noUB_abort) (fun _ => noUB_bind (packageSizes_noUB pps) (fun _ _ => noUB_pure _))

theorem setNode_noUB (node : Nat) : ∀ (list : List Nat) (lps : List LP), (∀ x ∈ list, x < lps.length) →
    NoUB (setNode node list lps)
  | [], _, _ => noUB_ok _
  | x :: list, lps, h => by
    unfold setNode
    have hx := h x (by simp)
    refine noUB_bind (noUB_read hx) (fun l _ => noUB_bind (noUB_write _ hx) (fun lps1 h1 => ?_))
    obtain ⟨_, rfl⟩ := write_ok h1
    exact setNode_noUB node list _ (fun y hy => by simpa using h y (by simp [hy]))

theorem setNodes_noUB (riscv : Bool) {fs : Sysfs} (hs : SmallFiles fs) : ∀ (fuel node : Nat) (lps : List LP),
    0 < lps.length → NoUB (setNodes riscv fs fuel node lps)
  | 0, _, _, _ => noUB_abort
  | fuel + 1, node, lps, h0 => by
    unfold setNodes
    rw [readSysfs_safe hs, ok_bind']
    cases fs .node node with
    | none => exact noUB_pure _
    | some c =>
      simp only [Option.map_some]
      obtain ⟨q1, q2⟩ := expandList_safe riscv (c ++ ['\x00']) (lps.length - 1) ⟨c, rfl⟩
      refine noUB_bind q1 (fun list h1 => ?_)
      refine noUB_bind (setNode_noUB node list lps (fun x hx => by have := q2 list h1 x hx; omega)) (fun lps1 h2 => ?_)
      exact setNodes_noUB riscv hs fuel (node + 1) lps1 (by rw [(setNode_inv node list lps lps1 h2).1.1]; exact h0)

/-! ### What detection establishes -/

structure Detected (fs : Sysfs) (total : Nat) (sizes : List PackageSizes) (lps : List LP) : Prop where
  len : lps.length = total
  bounds : ∀ i, i < total → ∃ s, sizes[(lpAt lps i).package]? = some s ∧ (lpAt lps i).cluster < s.numClusters ∧
    (lpAt lps i).core < s.numCores
  onto : ∀ (p : Nat) (s : PackageSizes) (c : Nat), sizes[p]? = some s → c < s.numClusters →
    ∃ i, i < total ∧ (lpAt lps i).package = p ∧ (lpAt lps i).cluster = c
  ne : sizes ≠ []

/-- The state between the loops. -/
theorem state2_init {fs : Sysfs} {total : Nat} {packages : Remapper} {lps1 : List LP} {ids : List Nat}
    (inv1 : Inv1 fs total total packages lps1 ids) :
    State2 fs 0 total lps1 (List.replicate packages.num {}) lps1 (fun _ => ([], [])) := by
  refine ⟨inv1.len, fun _ => rfl, ?_⟩
  intro p pp hpp
  rw [List.getElem?_replicate] at hpp
  split at hpp
  · cases hpp
    exact ⟨⟨by simp, rfl, rfl⟩, ⟨by simp, rfl, rfl⟩, fun i hi => by omega, fun i hi => by omega,
      fun k hk => by simp at hk, fun k hk => by simp at hk, fun c hc => by
        simp only
        rw [List.getElem?_replicate, if_pos hc]; rfl, fun c => by simp [smtCount], fun i hi => by omega⟩
  · cases hpp

theorem inv1_init (fs : Sysfs) (total : Nat) : Inv1 fs 0 total {} (List.replicate total {}) [] :=
  ⟨by simp, ⟨by simp, rfl, rfl⟩, fun i hi => by omega, fun k hk => by simp at hk⟩

theorem detected_of {fs : Sysfs} {total : Nat} {packages : Remapper} {lps1 lps2 : List LP} {ids : List Nat}
    {ids2 : Nat → List Nat × List Nat} {pps : List PerPackage} {sizes : List PackageSizes}
    (inv1 : Inv1 fs total total packages lps1 ids) (st : State2 fs total total lps1 pps lps2 ids2)
    (hlen : pps.length = packages.num) (hp0 : packages.num ≠ 0) (g3 : packageSizes pps = .ok sizes) :
    Detected fs total sizes lps2 := by
  obtain ⟨z1, z2⟩ := packageSizes_inv pps sizes g3
  have hpp : ∀ p, p < ids.length → ∃ pp, pps[p]? = some pp := by
    intro p hp
    have : p < pps.length := by rw [hlen, inv1.r.num]; exact hp
    exact ⟨pps[p], List.getElem?_eq_getElem this⟩
  refine ⟨st.len, ?_, ?_, ?_⟩
  · intro i hi
    have hpk : (lpAt lps2 i).package < ids.length := by
      obtain ⟨x, _, e⟩ := inv1.id i hi
      rw [st.same]
      exact (List.getElem?_eq_some_iff.mp e).1
    obtain ⟨pp, hpp⟩ := hpp _ hpk
    refine ⟨_, z2 _ pp hpp, ?_, ?_⟩
    · simp only [(st.inv _ pp hpp).clusters.num]
      rcases (st.inv _ pp hpp).cluster i hi rfl with ⟨_, e2⟩ | ⟨x', _, e2⟩
      · omega
      · have := (List.getElem?_eq_some_iff.mp e2).1
        omega
    · simp only [(st.inv _ pp hpp).cores.num]
      obtain ⟨x, _, e2⟩ := (st.inv _ pp hpp).core i hi rfl
      exact (List.getElem?_eq_some_iff.mp e2).1
  · intro p s c hs hc
    have hp : p < ids.length := by
      have := (List.getElem?_eq_some_iff.mp hs).1
      rw [z1, hlen, inv1.r.num] at this
      exact this
    obtain ⟨pp, hpp⟩ := hpp p hp
    have inv := st.inv _ pp hpp
    rw [z2 _ pp hpp] at hs
    cases hs
    simp only [inv.clusters.num] at hc
    by_cases hk : c < (ids2 p).2.length
    · obtain ⟨i, i1, i2, i3, _⟩ := inv.clusterOnto c hk
      exact ⟨i, i1, i2, i3⟩
    · obtain ⟨i, i1, i2⟩ := inv1.onto p hp
      rw [← st.same] at i2
      refine ⟨i, i1, i2, ?_⟩
      rcases inv.cluster i i1 i2 with ⟨_, e⟩ | ⟨x, _, e⟩
      · omega
      · have := (List.getElem?_eq_some_iff.mp e).1
        omega
  · intro e
    rw [e] at z1
    simp at z1
    omega

theorem detectPackages_noUB {fs : Sysfs} (hs : SmallFiles fs) (total : Nat) :
    NoUB (detectPackages fs (List.replicate total {})) := by
  unfold detectPackages
  refine noUB_bind (detect1_noUB hs _ _ _ _ (by simp)) ?_
  intro o h1
  cases o with
  | none => exact noUB_pure _
  | some o =>
    obtain ⟨packages, lps1⟩ := o
    rw [List.length_replicate] at h1
    obtain ⟨ids, inv1⟩ := detect1_inv fs total _ _ _ _ _ _ _ (inv1_init fs total) h1
    rw [Nat.zero_add] at inv1
    simp only
    refine noUB_ite (fun _ => noUB_abort) (fun _ => ?_)
    refine noUB_bind (detect2_noUB hs _ _ _ _ (by omega) ?_ ?_) ?_
    · intro pp hpp
      rw [List.mem_replicate] at hpp
      rw [hpp.2]
      simp
    · intro i hi
      rw [inv1.len] at hi
      obtain ⟨x, _, e⟩ := inv1.id i hi
      rw [List.length_replicate, inv1.r.num]
      exact (List.getElem?_eq_some_iff.mp e).1
    · intro o _
      cases o with
      | none => exact noUB_pure _
      | some o => exact noUB_bind (packageSizes_noUB _) (fun _ _ => noUB_pure _)

theorem detectPackages_detected {fs : Sysfs} {total : Nat} {sizes : List PackageSizes} {lps : List LP}
    (h : detectPackages fs (List.replicate total {}) = .ok (some (sizes, lps))) : Detected fs total sizes lps := by
  unfold detectPackages at h
  obtain ⟨o, g1, h1⟩ := bind_ok h
  cases o with
  | none => cases h1
  | some o =>
  obtain ⟨packages, lps1⟩ := o
  simp only at h1
  by_cases hp0 : packages.num = 0
  · rw [if_pos hp0] at h1; cases h1
  rw [if_neg hp0] at h1
  obtain ⟨o, g2, h1⟩ := bind_ok h1
  cases o with
  | none => cases h1
  | some o =>
  obtain ⟨pps, lps2⟩ := o
  simp only at h1
  obtain ⟨sz, g3, h1⟩ := bind_ok h1
  cases h1
  rw [List.length_replicate] at g1
  obtain ⟨ids, inv1⟩ := detect1_inv fs total _ _ _ _ _ _ _ (inv1_init fs total) g1
  rw [Nat.zero_add] at inv1
  rw [inv1.len] at g2
  obtain ⟨ids2, st, hlen⟩ := detect2_inv fs total lps1 _ _ _ _ _ _ _ (state2_init inv1) g2
  rw [Nat.zero_add] at st
  rw [List.length_replicate] at hlen
  exact detected_of inv1 st hlen hp0 g3

/-! ### Sets and caches -/

theorem inv3_init (lps : List LP) (sizes : List PackageSizes) :
    Inv3 lps 0 sizes (sizes.map (fun s => (⟨List.replicate s.numClusters {}, List.replicate s.numCores {}⟩ : Package))) := by
  refine ⟨by simp, ?_, ?_, ?_⟩
  · intro p P s hP hs
    rw [List.getElem?_map, hs] at hP
    cases hP
    simp
  · intro p P c C hP hC
    rw [List.getElem?_map] at hP
    cases hs : sizes[p]? with
    | none => rw [hs] at hP; cases hP
    | some s =>
      rw [hs] at hP
      cases hP
      simp only at hC
      rw [List.getElem?_replicate] at hC
      split at hC
      · cases hC; rfl
      · cases hC
  · intro p P c C hP hC
    rw [List.getElem?_map] at hP
    cases hs : sizes[p]? with
    | none => rw [hs] at hP; cases hP
    | some s =>
      rw [hs] at hP
      cases hP
      simp only at hC
      rw [List.getElem?_replicate] at hC
      split at hC
      · cases hC; rfl
      · cases hC

/-- In-bounds, so that populating always succeeds. -/
theorem populate_ok {fs : Sysfs} {total : Nat} {sizes : List PackageSizes} {lps : List LP} (d : Detected fs total sizes lps)
    (ht : total ≤ kMaxLogicalProcessors) : ∀ (todo n : Nat) (packages : List Package), n + todo = total →
    Inv3 lps n sizes packages → ∃ packages', populate lps todo n packages = .ok packages'
  | 0, _, packages, _, _ => ⟨packages, rfl⟩
  | todo + 1, n, packages, hn, inv => by
    have hlt : n < lps.length := by rw [d.len]; omega
    obtain ⟨s, hs, b1, b2⟩ := d.bounds n (by omega)
    have hget : lps[n]? = some (lpAt lps n) := by
      rw [lpAt_of_get (List.getElem?_eq_getElem hlt)]
      exact List.getElem?_eq_getElem hlt
    have hp : (lpAt lps n).package < packages.length := by rw [inv.len]; exact (List.getElem?_eq_some_iff.mp hs).1
    obtain ⟨d1, d2⟩ := inv.dims _ _ s (List.getElem?_eq_getElem hp) hs
    have e1 : readAt lps n = .ok (lpAt lps n) := by unfold readAt; rw [hget]
    have c1 : (lpAt lps n).cluster < packages[(lpAt lps n).package].clusters.length := by rw [d1]; exact b1
    have c2 : (lpAt lps n).core < packages[(lpAt lps n).package].cores.length := by rw [d2]; exact b2
    obtain ⟨ps', step⟩ : ∃ ps', ∀ todo, populate lps (todo + 1) n packages = populate lps todo (n + 1) ps' := by
      refine ⟨packages.set (lpAt lps n).package
        ⟨packages[(lpAt lps n).package].clusters.set (lpAt lps n).cluster
          { packages[(lpAt lps n).package].clusters[(lpAt lps n).cluster] with
            lps := packages[(lpAt lps n).package].clusters[(lpAt lps n).cluster].lps ++ [n] },
        packages[(lpAt lps n).package].cores.set (lpAt lps n).core
          { packages[(lpAt lps n).package].cores[(lpAt lps n).core] with
            lps := packages[(lpAt lps n).package].cores[(lpAt lps n).core].lps ++ [n] }⟩, fun todo => ?_⟩
      rw [populate, e1, ok_bind', readAt_of_lt hp, ok_bind', if_neg (by omega), readAt_of_lt c1, ok_bind',
        writeAt_of_lt _ c1, ok_bind', readAt_of_lt c2, ok_bind',
        writeAt_of_lt _ c2, ok_bind', writeAt_of_lt _ hp, ok_bind']
    have inv' := populate_inv lps sizes 1 n packages ps' inv (step 0)
    rw [step]
    exact populate_ok d ht todo (n + 1) ps' (by omega) inv'

/-- A number of bytes in KiB, as `SetClusterCacheSizes` stores it. -/
theorem cacheKib_noUB {fs : Sysfs} (hs : SmallFiles fs) (key : Key) (lp old : Nat) : NoUB (cacheKib fs key lp old) := by
  unfold cacheKib
  refine noUB_bind (readNumber_noUB hs key lp) ?_
  intro o _
  cases o with
  | none => exact noUB_pure _
  | some b => exact noUB_pure _

theorem cacheSizes_noUB {fs : Sysfs} (hs : SmallFiles fs) : ∀ (cs : List Cluster), (∀ c ∈ cs, c.lps ≠ []) → NoUB (cacheSizes fs cs)
  | [], _ => noUB_ok _
  | c :: cs, h => by
    unfold cacheSizes
    have hc := h c (by simp)
    cases e : c.lps with
    | nil => exact absurd e hc
    | cons lp rest =>
      exact noUB_bind (cacheKib_noUB hs _ _ _) (fun _ _ => noUB_bind (cacheKib_noUB hs _ _ _) (fun _ _ =>
        noUB_bind (cacheSizes_noUB hs cs (fun x hx => h x (by simp [hx]))) (fun _ _ => noUB_pure _)))

theorem setCache_noUB {fs : Sysfs} (hs : SmallFiles fs) : ∀ (ps : List Package), (∀ p ∈ ps, ∀ c ∈ p.clusters, c.lps ≠ []) →
    NoUB (setClusterCacheSizes fs ps)
  | [], _ => noUB_ok _
  | p :: ps, h => by
    unfold setClusterCacheSizes
    exact noUB_bind (cacheSizes_noUB hs _ (h p (by simp))) (fun _ _ =>
      noUB_bind (setCache_noUB hs ps (fun x hx => h x (by simp [hx]))) (fun _ _ => noUB_pure _))

theorem Detected.sameButNode {fs : Sysfs} {total : Nat} {sizes : List PackageSizes} {lps lps' : List LP}
    (d : Detected fs total sizes lps) (h : SameButNode lps' lps) : Detected fs total sizes lps' := by
  have fld := fun i => mk_fields (h.2 i)
  refine ⟨h.1.trans d.len, ?_, ?_, d.ne⟩
  · intro i hi
    rw [(fld i).1, (fld i).2.1, (fld i).2.2.1]
    exact d.bounds i hi
  · intro p s c hs hc
    obtain ⟨i, i1, i2, i3⟩ := d.onto p s c hs hc
    exact ⟨i, i1, by rw [(fld i).1]; exact i2, by rw [(fld i).2.2.1]; exact i3⟩

theorem clusters_nonempty {fs : Sysfs} {total : Nat} {sizes : List PackageSizes} {lps : List LP} {ps : List Package}
    (d : Detected fs total sizes lps) (inv : Inv3 lps total sizes ps) : ∀ p ∈ ps, ∀ c ∈ p.clusters, c.lps ≠ [] := by
  intro P hP C hC
  obtain ⟨p, hp⟩ := List.getElem?_of_mem hP
  obtain ⟨c, hc⟩ := List.getElem?_of_mem hC
  have hlt : p < sizes.length := by rw [← inv.len]; exact (List.getElem?_eq_some_iff.mp hp).1
  have hs := List.getElem?_eq_getElem hlt
  have := (List.getElem?_eq_some_iff.mp hc).1
  rw [(inv.dims p P _ hp hs).1] at this
  obtain ⟨i, i1, i2, i3⟩ := d.onto p _ c hs this
  rw [inv.cl p P c C hp hc]
  intro e
  have hm : i ∈ members lps total (fun l => l.package = p ∧ l.cluster = c) := (members_mem _ _ _ _).mpr ⟨i1, by simp [i2, i3]⟩
  rw [e] at hm
  cases hm

/-- C43: whatever the files in sysfs contain, as long as each fits into the buffer, constructing a `Topology` has no undefined
behaviour: all processors, packages, clusters and cores are accessed in bounds, and no cluster is empty when its cache sizes
are read. -/
theorem C43_no_ub (riscv : Bool) (fs : Sysfs) (hs : SmallFiles fs) (total numNodes : Nat) (h0 : 0 < total)
    (ht : total ≤ kMaxLogicalProcessors) : topology riscv fs total numNodes ≠ .error .ub := by
  show NoUB _
  unfold topology
  refine noUB_bind (detectPackages_noUB hs total) ?_
  intro o h1
  cases o with
  | none => exact noUB_pure _
  | some o =>
    obtain ⟨sizes, lps⟩ := o
    have d := detectPackages_detected h1
    simp only
    refine noUB_bind (setNodes_noUB riscv hs _ _ _ (by rw [d.len]; exact h0)) (fun lps4 h4 => ?_)
    have d4 := d.sameButNode (setNodes_inv riscv fs _ _ _ _ h4)
    rw [d4.len]
    obtain ⟨ps, hps⟩ := populate_ok d4 ht total 0 _ (by omega) (inv3_init lps4 sizes)
    have inv3 := populate_inv lps4 sizes _ _ _ _ (inv3_init lps4 sizes) hps
    rw [Nat.zero_add] at inv3
    rw [hps, ok_bind']
    exact noUB_bind (setCache_noUB hs ps (clusters_nonempty d4 inv3)) (fun _ _ => noUB_pure _)

end Topo
end Hwy
