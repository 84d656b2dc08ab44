import Verif.PivotProof2

/-! # `Recurse`, `Sort`, `PartialSort`, `Select`: proofs -/

namespace Hwy
namespace VQ

variable {α : Type}

open Net

/-- What a call achieves in each mode. -/
def ModePost (lt : α → α → Bool) : Mode → List α → Prop
  | .sort, l => Sorted lt l
  | .select k, l => k < l.length → Selected lt l k

theorem sorted_selected {lt : α → α → Bool} {l : List α} (h : Sorted lt l) {k : Nat} (hk : k < l.length) : Selected lt l k := by
  refine ⟨l[k], List.getElem?_eq_getElem hk, ?_, ?_⟩
  · intro y hy
    obtain ⟨j, hj, rfl⟩ := List.getElem_of_mem hy
    rw [List.length_take] at hj
    rw [List.getElem_take]
    exact (List.pairwise_iff_getElem.mp h) j k (by omega) hk (by omega)
  · intro y hy
    obtain ⟨j, hj, rfl⟩ := List.getElem_of_mem hy
    rw [List.length_drop] at hj
    rw [List.getElem_drop]
    exact (List.pairwise_iff_getElem.mp h) k (k + 1 + j) hk (by omega) (by omega)

theorem sorted_post {lt : α → α → Bool} {l : List α} (h : Sorted lt l) (mode : Mode) : ModePost lt mode l := by
  cases mode with
  | sort => exact h
  | select k => exact fun hk => sorted_selected h hk

/-- `L` before `R` in sort order. -/
def Before (lt : α → α → Bool) (L R : List α) : Prop := ∀ x ∈ L, ∀ y ∈ R, lt y x = false

theorem before_perm {lt : α → α → Bool} {L R L2 R2 : List α} (h : Before lt L R) (hl : L2.Perm L) (hr : R2.Perm R) : Before lt L2 R2 :=
  fun x hx y hy => h x (hl.mem_iff.mp hx) y (hr.mem_iff.mp hy)

theorem sorted_append {lt : α → α → Bool} {L R : List α} (h1 : Sorted lt L) (h2 : Sorted lt R) (h : Before lt L R) : Sorted lt (L ++ R) :=
  List.pairwise_append.mpr ⟨h1, h2, h⟩

theorem selected_left {lt : α → α → Bool} {L R : List α} {k : Nat} (hk : k < L.length) (h1 : Selected lt L k) (h : Before lt L R) :
    Selected lt (L ++ R) k := by
  obtain ⟨x, e, h2, h3⟩ := h1
  refine ⟨x, by rw [List.getElem?_append_left hk]; exact e, ?_, ?_⟩
  · rw [List.take_append_of_le_length (by omega)]; exact h2
  · rw [List.drop_append_of_le_length (by omega)]
    intro y hy
    rcases List.mem_append.mp hy with hy | hy
    · exact h3 y hy
    · exact h x (List.mem_of_getElem? e) y hy

theorem selected_right {lt : α → α → Bool} {L R : List α} {k : Nat} (hk : L.length ≤ k) (h1 : Selected lt R (k - L.length)) (h : Before lt L R) :
    Selected lt (L ++ R) k := by
  obtain ⟨x, e, h2, h3⟩ := h1
  have hxR := List.mem_of_getElem? e
  refine ⟨x, by rw [List.getElem?_append_right hk]; exact e, ?_, ?_⟩
  · rw [List.take_append]
    intro y hy
    rcases List.mem_append.mp hy with hy | hy
    · exact h y (List.mem_of_mem_take hy) x hxR
    · exact h2 y hy
  · rw [List.drop_append]
    intro y hy
    rcases List.mem_append.mp hy with hy | hy
    · rw [List.drop_of_length_le (by omega)] at hy; cases hy
    · rw [show k + 1 - L.length = k - L.length + 1 by omega] at hy
      exact h3 y hy

/-- Result of a call. -/
def CallPost (lt : α → α → Bool) (mode : Mode) (s : St α) (r : M (St α)) : Prop :=
  ∃ s', r = .ok s' ∧ s'.keys.Perm s.keys ∧ s'.buf.length = s.buf.length ∧ ModePost lt mode s'.keys

theorem heapAll_spec {t : Traits α} (hv : t.Valid) (mode : Mode) (s : St α) (h1 : 0 < s.keys.length) (h64 : s.keys.length < 2 ^ 64) :
    CallPost t.lt mode s (heapAll t s) := by
  obtain ⟨a, h2, h3, h4, h5⟩ := C21_heapSort hv.order s.keys s.keys.length h1 (Nat.le_refl _) h64
  unfold heapAll
  rw [h2, ok_bind]
  rw [List.drop_length] at h5
  have hl : a.length ≤ s.keys.length := by
    have := congrArg List.length h5
    simp at this; omega
  rw [List.take_of_length_le hl] at h3 h4
  rw [List.take_length] at h3
  exact ⟨_, rfl, h3, rfl, sorted_post h4 mode⟩

theorem onLeft_spec {lt : α → α → Bool} {mode : Mode} (f : St α → M (St α)) (bound : Nat) (s : St α)
    (h : CallPost lt mode { s with keys := s.keys.take bound } (f { s with keys := s.keys.take bound })) :
    ∃ L b g, onLeft f bound s = .ok ⟨L ++ s.keys.drop bound, b, g⟩ ∧ L.Perm (s.keys.take bound) ∧ b.length = s.buf.length ∧ ModePost lt mode L := by
  obtain ⟨s', h1, h2, h3, h4⟩ := h
  unfold onLeft
  rw [h1, ok_bind]
  exact ⟨_, _, _, rfl, h2, h3, h4⟩

theorem onRight_spec {lt : α → α → Bool} {mode : Mode} (f : St α → M (St α)) (bound : Nat) (s : St α)
    (h : CallPost lt mode { s with keys := s.keys.drop bound } (f { s with keys := s.keys.drop bound })) :
    ∃ R b g, onRight f bound s = .ok ⟨s.keys.take bound ++ R, b, g⟩ ∧ R.Perm (s.keys.drop bound) ∧ b.length = s.buf.length ∧ ModePost lt mode R := by
  obtain ⟨s', h1, h2, h3, h4⟩ := h
  unfold onRight
  rw [h1, ok_bind]
  exact ⟨_, _, _, rfl, h2, h3, h4⟩

/-- `Recurse` does what its mode says, for every number of remaining levels and every state of the random generator. -/
theorem recurse_spec {e : Env α} (he : e.Valid) {t : Traits α} (hv : t.Valid) : ∀ levels mode addr (s : St α),
    s.keys.length + e.c.N ≤ 2 ^ 64 → e.bufNum ≤ s.buf.length → (e.debug = true → s.keys ≠ []) →
    CallPost t.lt mode s (recurse e t levels mode addr s) := by
  have ho := hv.order
  have hNp := he.N_pos
  have hs := he.samples
  have hcp := he.chunk
  have hNc := he.N_le
  intro levels
  induction levels with
  | zero =>
    intro mode addr s h64 hb hd
    unfold recurse
    rw [if_neg (fun h => hd h.1 (List.length_eq_zero_iff.mp h.2))]
    by_cases hc : s.keys.length ≤ e.bcNum
    · rw [if_pos hc]
      obtain ⟨out, b, h1, h2, h3, h4⟩ := baseCase_spec he hv s.keys s.buf hc (by unfold Env.bufNum at hb; omega)
      rw [h1, ok_bind]
      exact ⟨_, rfl, h4, h2, sorted_post h3 mode⟩
    · rw [if_neg hc]
      obtain ⟨r, g, h1, h2, h3, h4, h5⟩ := choosePivot_spec he hv addr s.keys s.buf s.rng (by omega) h64 hb
      rw [h1, ok_bind]
      simp only []
      split
      · rename_i hq
        exact ⟨_, rfl, h2, h3, sorted_post (h4 hq) mode⟩
      · have hl := h2.length_eq
        obtain ⟨s', q1, q2, q3, q4⟩ := heapAll_spec hv mode ⟨r.keys, r.buf, g⟩ (by show 0 < r.keys.length; omega) (by show r.keys.length < _; omega)
        exact ⟨s', q1, q2.trans h2, q3.trans h3, q4⟩
  | succ levels ih =>
    intro mode addr s h64 hb hd
    unfold recurse
    rw [if_neg (fun h => hd h.1 (List.length_eq_zero_iff.mp h.2))]
    by_cases hc : s.keys.length ≤ e.bcNum
    · rw [if_pos hc]
      obtain ⟨out, b, h1, h2, h3, h4⟩ := baseCase_spec he hv s.keys s.buf hc (by unfold Env.bufNum at hb; omega)
      rw [h1, ok_bind]
      exact ⟨_, rfl, h4, h2, sorted_post h3 mode⟩
    · rw [if_neg hc]
      obtain ⟨r, g, h1, h2, h3, h4, h5⟩ := choosePivot_spec he hv addr s.keys s.buf s.rng (by omega) h64 hb
      rw [h1, ok_bind]
      simp only []
      split
      · rename_i hq
        exact ⟨_, rfl, h2, h3, sorted_post (h4 hq) mode⟩
      · rename_i hq
        have hl := h2.length_eq
        obtain ⟨⟨xl, hxl, hxl2⟩, hgt, hfirst, hlast⟩ := h5 hq
        obtain ⟨bound, out, buf', p1, p2, p3, p4, p5, p6⟩ := C19_partition e.c t.lt r.pivot r.keys r.buf hNp (by omega)
          (by unfold Env.bufNum at hb; omega) (by
            rcases he.stores with h | h
            · exact Or.inl h
            · exact Or.inr (Or.inl h))
        rw [p1, ok_bind]
        simp only []
        have hol : out.length = s.keys.length := by rw [p2.length_eq, hl]
        have hb0 : 0 < bound := by
          rw [p4, List.countP_pos_iff]; exact ⟨xl, hxl, by simp [hxl2]⟩
        have hbl : bound ≤ out.length := by rw [p4, p2.length_eq]; exact List.countP_le_length
        have hbn : r.result ≠ .wasLast → bound < out.length := by
          intro h
          obtain ⟨y, hy, hy2⟩ := hgt h
          have hne : bound ≠ out.length := by
            intro hbo
            rw [p4, p2.length_eq, List.countP_eq_length] at hbo
            have := hbo y hy
            simp [hy2] at this
          omega
        rw [if_neg (by
          rintro (h | ⟨h, h'⟩)
          · omega
          · have := hbn h'; omega)]
        -- the two halves
        have hmem : ∀ x ∈ out, x ∈ r.keys := fun x hx => p2.mem_iff.mp hx
        have hbef : Before t.lt (out.take bound) (out.drop bound) := by
          intro x hx y hy
          exact ho.asymm (le_lt ho (p5 x hx) (p6 y hy))
        have sL : r.result = .isFirst → Sorted t.lt (out.take bound) := by
          intro h
          refine List.Pairwise.imp_of_mem (R := fun _ _ => True) ?_ (List.pairwise_of_forall (fun _ _ => trivial))
          intro a b ha hb _
          exact hfirst h b (hmem b (List.mem_of_mem_take hb)) a (hmem a (List.mem_of_mem_take ha)) (p5 b hb) (p5 a ha)
        have sR : r.result = .wasLast → Sorted t.lt (out.drop bound) := by
          intro h
          refine List.Pairwise.imp_of_mem (R := fun _ _ => True) ?_ (List.pairwise_of_forall (fun _ _ => trivial))
          intro a b ha hb _
          exact hlast h b (hmem b (List.mem_of_mem_drop hb)) a (hmem a (List.mem_of_mem_drop ha)) (p6 b hb) (p6 a ha)
        have lt_take : (out.take bound).length = bound := by rw [List.length_take]; omega
        have ne_take : out.take bound ≠ [] := by intro h; rw [h] at lt_take; simp at lt_take; omega
        have len_drop : (out.drop bound).length = out.length - bound := List.length_drop
        have callL : ∀ (m : Mode) (b : List α) (g : Rng), b.length = s.buf.length →
            CallPost t.lt m ⟨out.take bound, b, g⟩ (recurse e t levels m addr ⟨out.take bound, b, g⟩) := by
          intro m b g hbb
          exact ih m addr ⟨out.take bound, b, g⟩ (by show (out.take bound).length + _ ≤ _; omega) (by show _ ≤ b.length; omega) (fun _ => ne_take)
        have callR : r.result ≠ .wasLast → ∀ (m : Mode) (b : List α) (g : Rng), b.length = s.buf.length →
            CallPost t.lt m ⟨out.drop bound, b, g⟩ (recurse e t levels m (addr + bound) ⟨out.drop bound, b, g⟩) := by
          intro hnl m b g hbb
          refine ih m (addr + bound) ⟨out.drop bound, b, g⟩ (by show (out.drop bound).length + _ ≤ _; omega) (by show _ ≤ b.length; omega) ?_
          intro _ h
          have h : out.drop bound = [] := h
          have := hbn hnl
          rw [h] at len_drop; simp at len_drop; omega
        have p3' : buf'.length = s.buf.length := by omega
        cases mode with
        | select k =>
          simp only []
          split
          · rename_i hk
            obtain ⟨L, b, g', q1, q2, q3, q4⟩ := onLeft_spec _ bound ⟨out, buf', g⟩ (callL (.select k) buf' g p3')
            rw [q1]
            have hLl : L.length = bound := by rw [q2.length_eq]; exact lt_take
            refine ⟨_, rfl, ?_, q3.trans p3', fun _ => ?_⟩
            · have hp : (L ++ out.drop bound).Perm out := by
                conv_rhs => rw [← List.take_append_drop bound out]
                exact List.Perm.append_right _ q2
              exact hp.trans (p2.trans h2)
            · exact selected_left (by omega) (q4 (by omega)) (before_perm hbef q2 (List.Perm.refl _))
          · rename_i hk
            split
            · rename_i hk2
              obtain ⟨R, b, g', q1, q2, q3, q4⟩ := onRight_spec _ bound ⟨out, buf', g⟩ (callR hk2.1 (.select (k - bound)) buf' g p3')
              rw [q1]
              have hRl : R.length = out.length - bound := by rw [q2.length_eq]; exact len_drop
              refine ⟨_, rfl, ?_, q3.trans p3', fun hkl => ?_⟩
              · have hp : (out.take bound ++ R).Perm out := by
                  conv_rhs => rw [← List.take_append_drop bound out]
                  exact List.Perm.append_left _ q2
                exact hp.trans (p2.trans h2)
              · have hkl : k < (out.take bound ++ R).length := hkl
                rw [List.length_append, lt_take, hRl] at hkl
                have hkb := hk2.2
                refine selected_right (L := out.take bound) (by rw [lt_take]; exact hkb) ?_ (before_perm hbef (List.Perm.refl _) q2)
                rw [lt_take]
                exact q4 (by omega)
            · rename_i hk2
              refine ⟨_, rfl, p2.trans h2, p3', fun hkl => ?_⟩
              have hkl : k < out.length := hkl
              show Selected t.lt out k
              rw [← List.take_append_drop bound out]
              by_cases hkb : k < bound
              · have hf : r.result = .isFirst := by
                  by_contra hf; exact hk ⟨hf, hkb⟩
                exact selected_left (by omega) (sorted_selected (sL hf) (by omega)) hbef
              · have hf : r.result = .wasLast := by
                  by_contra hf; exact hk2 ⟨hf, by omega⟩
                exact selected_right (by omega) (sorted_selected (sR hf) (by omega)) hbef
        | sort =>
          simp only []
          -- after the left part
          have left : ∃ L b g', orKeep (r.result ≠ .isFirst) (onLeft (recurse e t levels .sort addr) bound) ⟨out, buf', g⟩ = .ok ⟨L ++ out.drop bound, b, g'⟩ ∧ L.Perm (out.take bound) ∧ b.length = s.buf.length ∧
              Sorted t.lt L := by
            unfold orKeep
            split
            · obtain ⟨L, b, g', q1, q2, q3, q4⟩ := onLeft_spec _ bound ⟨out, buf', g⟩ (callL .sort buf' g p3')
              exact ⟨L, b, g', q1, q2, q3.trans p3', q4⟩
            · rename_i hf
              refine ⟨out.take bound, buf', g, ?_, List.Perm.refl _, p3', sL (by simpa using hf)⟩
              rw [List.take_append_drop]
          obtain ⟨L, b, g', q1, q2, q3, q4⟩ := left
          have hLl : L.length = bound := by rw [q2.length_eq]; exact lt_take
          rw [q1, ok_bind]
          have hLp : (L ++ out.drop bound).Perm s.keys := by
            have hp : (L ++ out.drop bound).Perm out := by
              conv_rhs => rw [← List.take_append_drop bound out]
              exact List.Perm.append_right _ q2
            exact hp.trans (p2.trans h2)
          split
          · rename_i hw
            have e1 : (L ++ out.drop bound).drop bound = out.drop bound := List.drop_left' hLl
            have e2 : (L ++ out.drop bound).take bound = L := List.take_left' hLl
            obtain ⟨R, b2, g2, w1, w2, w3, w4⟩ := onRight_spec (mode := .sort) (lt := t.lt) (recurse e t levels .sort (addr + bound)) bound ⟨L ++ out.drop bound, b, g'⟩
              (by show CallPost t.lt .sort ⟨(L ++ out.drop bound).drop bound, b, g'⟩ (recurse e t levels .sort (addr + bound) ⟨(L ++ out.drop bound).drop bound, b, g'⟩)
                  rw [e1]; exact callR hw .sort b g' q3)
            rw [w1]
            have w1' : (⟨L ++ out.drop bound, b, g'⟩ : St α).keys.take bound ++ R = L ++ R := by rw [e2]
            have w2' : R.Perm (out.drop bound) := by rw [← e1]; exact w2
            refine ⟨_, rfl, ?_, w3.trans q3, ?_⟩
            · show (List.take bound (L ++ out.drop bound) ++ R).Perm _
              rw [e2]
              exact (List.Perm.append_left L w2').trans hLp
            · show Sorted t.lt (List.take bound (L ++ out.drop bound) ++ R)
              rw [e2]
              exact sorted_append q4 w4 (before_perm hbef q2 w2')
          · rename_i hw
            exact ⟨_, rfl, hLp, q3, sorted_append q4 (sR (by simpa using hw)) (before_perm hbef q2 (List.Perm.refl _))⟩

end VQ
end Hwy
