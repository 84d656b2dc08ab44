import Verif.Topology
import Mathlib.Tactic.Ring
import Mathlib.Data.List.Basic

/-!
# C37, C43-C45: topology detection
-/

namespace Hwy
namespace Topo

theorem ok_bind' {α β : Type} (a : α) (f : α → M β) : ((Except.ok a : M α) >>= f) = f a := rfl

/-! ## C44: reading a sysfs file -/

theorem fileRead_ok : ∀ (ev : List ReadEvent) (todo buf : List Char), buf.length + todo.length < 200 →
    fileRead ev todo buf = .ok (buf ++ todo ++ ['\x00'])
  | [], todo, buf, h => by
    have e : todo.take (200 - buf.length) = todo := List.take_of_length_le (by omega)
    unfold fileRead
    simp only [e, List.length_append]
    rw [if_neg (by omega), if_pos (by omega)]
  | .eintr :: ev, todo, buf, h => by
    unfold fileRead
    exact fileRead_ok ev todo buf h
  | .chunk k :: ev, todo, buf, h => by
    unfold fileRead
    simp only
    by_cases h0 : min (k + 1) (min todo.length (200 - buf.length)) = 0
    · have : todo = [] := List.eq_nil_of_length_eq_zero (by omega)
      subst this
      rw [if_pos h0, if_pos (by omega)]
      simp
    · rw [if_neg h0, if_neg (by simp; omega), fileRead_ok ev _ _ (by simp; omega), List.append_assoc buf,
        List.take_append_drop]

theorem fileRead_overflow : ∀ (ev : List ReadEvent) (todo buf : List Char), 200 ≤ buf.length + todo.length →
    buf.length ≤ 200 → fileRead ev todo buf = .error .ub
  | [], todo, buf, h, h' => by
    unfold fileRead
    simp only [List.length_append, List.length_take]
    rw [if_neg (by omega), if_neg (by omega)]
  | .eintr :: ev, todo, buf, h, h' => by
    unfold fileRead
    exact fileRead_overflow ev todo buf h h'
  | .chunk k :: ev, todo, buf, h, h' => by
    unfold fileRead
    simp only
    by_cases h0 : min (k + 1) (min todo.length (200 - buf.length)) = 0
    · rw [if_pos h0, if_neg (by omega)]
    · rw [if_neg h0, if_neg (by simp; omega), fileRead_overflow ev _ _ (by simp; omega) (by simp; omega)]

/-- C44: a file of at most 199 bytes is read completely and terminated, however the kernel splits or interrupts the reads. -/
theorem C44_read (ev : List ReadEvent) (contents : List Char) (h : contents.length ≤ 199) :
    fileRead ev contents [] = .ok (contents ++ ['\x00']) := by
  rw [fileRead_ok ev contents [] (by simp; omega)]; rfl

/-- Finding: a file of 200 bytes or more makes `Read` write its terminator after the end of the buffer. -/
theorem C44_finding_overflow (ev : List ReadEvent) (contents : List Char) (h : 200 ≤ contents.length) :
    fileRead ev contents [] = .error .ub :=
  fileRead_overflow ev contents [] (by simp; omega) (by simp)

/-! ## C37: CPU lists

### Specification -/

/-- A numeral: its decimal digits, most significant first. -/
abbrev Numeral := List (Fin 10)

def digitChar (d : Fin 10) : Char := Char.ofNat ('0'.toNat + d)

def Numeral.render (ds : Numeral) : List Char := ds.map digitChar

def Numeral.value (ds : Numeral) : Nat := ds.foldl (fun (n : Nat) (d : Fin 10) => n * 10 + d.val) 0

/-- A term of a list: one processor or a range. -/
inductive Term
  | one (n : Numeral)
  | range (first last : Numeral)

def Term.render : Term → List Char
  | .one n => n.render
  | .range a b => a.render ++ '-' :: b.render

/-- The processors a term stands for, in increasing order. -/
def Term.cpus : Term → List Nat
  | .one n => [n.value]
  | .range a b => (List.range (b.value + 1 - a.value)).map (a.value + ·)

/-- Terms separated by commas. -/
def renderList : List Term → List Char
  | [] => []
  | [t] => t.render
  | t :: ts => t.render ++ ',' :: renderList ts

/-- Numerals of one to nine digits. -/
def Numeral.Ok (maxLp : Nat) (n : Numeral) : Prop := 0 < n.length ∧ n.length ≤ 9 ∧ n.value ≤ maxLp

/-- A well-formed term: in bounds, ranges not descending. -/
def Term.Ok (maxLp : Nat) : Term → Prop
  | .one n => n.Ok maxLp
  | .range a b => a.Ok maxLp ∧ b.Ok maxLp ∧ a.value ≤ b.value

/-! ### Proofs -/

theorem digitChar_isDigit (d : Fin 10) : isDigit (digitChar d) = true := by
  revert d; decide

theorem digitChar_val (d : Fin 10) : (digitChar d).toNat - '0'.toNat = d := by
  revert d; decide

theorem digitChar_ne (d : Fin 10) : digitChar d ≠ '-' ∧ digitChar d ≠ ',' ∧ digitChar d ≠ '\x00' ∧ digitChar d ≠ '\n' := by
  revert d; decide

/-- What can follow a numeral. -/
def Stops (s : List Char) : Prop := ∃ c s', s = c :: s' ∧ isDigit c = false

theorem digitsLoop_spec (s : List Char) (hs : Stops s) : ∀ (ds : Numeral) (n used out : Nat), ds.length ≤ n →
    digitsLoop n (ds.render ++ s) used out = .ok (used + ds.length, ds.foldl (fun (n : Nat) (d : Fin 10) => n * 10 + d) out)
  | [], n, used, out, _ => by
    obtain ⟨c, s', rfl, hc⟩ := hs
    cases n with
    | zero => rfl
    | succ n => simp [digitsLoop, Numeral.render, hc]
  | d :: ds, 0, used, out, h => by simp at h
  | d :: ds, n + 1, used, out, h => by
    have ih := digitsLoop_spec s hs ds n (used + 1) (out * 10 + d) (by simpa using h)
    unfold Numeral.render at *
    simp only [List.map_cons, List.cons_append, digitsLoop, digitChar_isDigit, if_true, digitChar_val, ih,
      List.length_cons, List.foldl_cons]
    congr 2
    omega

/-- `pre` has been consumed. -/
theorem parseDigits_spec (pre s : List Char) (ds : Numeral) (end_ : Nat) (hs : Stops s) (h9 : ds.length ≤ 9)
    (h0 : 0 < pre.length + ds.length) (he : pre.length + ds.length ≤ end_) :
    parseDigits (pre ++ (ds.render ++ s)) end_ pre.length = .ok (true, pre.length + ds.length, ds.value) := by
  unfold parseDigits
  rw [if_pos (by omega)]
  simp only
  rw [List.drop_left, digitsLoop_spec s hs ds _ 0 0 (by omega), ok_bind']
  simp only [Nat.zero_add]
  rw [if_neg (by omega)]
  rfl

/-- `strchr` does not find a character in a numeral. -/
theorem strchr_skip (c : Char) (s : List Char) : ∀ (pre : List Char), (∀ x ∈ pre, x ≠ c ∧ x ≠ '\x00') →
    strchr c (pre ++ s) = (do return (← strchr c s).map (· + pre.length))
  | [], _ => by
    simp only [List.nil_append, List.length_nil, Nat.add_zero]
    rcases strchr c s with _ | (_ | k) <;> rfl
  | x :: pre, h => by
    have hx := h x (by simp)
    rw [List.cons_append, strchr, if_neg hx.1, if_neg hx.2, strchr_skip c s pre (fun y hy => h y (by simp [hy]))]
    rcases strchr c s with _ | (_ | k)
    · rfl
    · rfl
    · simp [bind, Except.bind, pure, Except.pure]
      omega

/-- The rest of the buffer after the list: an optional newline, a terminator, anything. -/
def Tail (t : List Char) : Prop := ∃ rest, t = '\x00' :: rest ∨ t = '\n' :: '\x00' :: rest

theorem tail_strchr {t : List Char} (ht : Tail t) (c : Char) (hc : c = '-' ∨ c = ',') : strchr c t = .ok none := by
  obtain ⟨rest, rfl | rfl⟩ := ht <;> rcases hc with rfl | rfl <;> rfl

/-- Where a separator is found, if there is one, it is inside of the rest of the list. -/
theorem strchr_body {t : List Char} (ht : Tail t) (c : Char) (hc : c = '-' ∨ c = ',') : ∀ (body : List Char),
    (∀ x ∈ body, x ≠ '\x00') →
    ∃ k, strchr c (body ++ t) = .ok k ∧ ∀ i, k = some i → i < body.length
  | [], _ => ⟨none, tail_strchr ht c hc, by simp⟩
  | x :: body, h => by
    obtain ⟨k, e, hk⟩ := strchr_body ht c hc body (fun y hy => h y (by simp [hy]))
    by_cases hx : x = c
    · exact ⟨some 0, by simp [strchr, hx], by intro i hi; simp at hi; subst hi; simp⟩
    · refine ⟨k.map (· + 1), by rw [List.cons_append, strchr, if_neg hx, if_neg (h x (by simp)), e]; rfl, ?_⟩
      intro i hi
      rcases k with _ | k
      · simp at hi
      · simp at hi
        have := hk k rfl
        simp
        omega

theorem render_ne0 (ds : Numeral) : ∀ x ∈ ds.render, x ≠ '-' ∧ x ≠ ',' ∧ x ≠ '\x00' ∧ x ≠ '\n' := by
  intro x hx
  unfold Numeral.render at hx
  rw [List.mem_map] at hx
  obtain ⟨d, _, rfl⟩ := hx
  exact digitChar_ne d

theorem Term.render_ne0 (t : Term) : ∀ x ∈ t.render, x ≠ '\x00' := by
  intro x hx
  cases t with
  | one n => exact (Topo.render_ne0 n x hx).2.2.1
  | range a b =>
    simp only [Term.render, List.mem_append, List.mem_cons] at hx
    rcases hx with hx | rfl | hx
    · exact (Topo.render_ne0 a x hx).2.2.1
    · decide
    · exact (Topo.render_ne0 b x hx).2.2.1

theorem renderList_ne0 : ∀ (ts : List Term), ∀ x ∈ renderList ts, x ≠ '\x00'
  | [], x, hx => by simp [renderList] at hx
  | [t], x, hx => t.render_ne0 x hx
  | t :: t' :: ts, x, hx => by
    simp only [renderList, List.mem_append, List.mem_cons] at hx
    rcases hx with hx | rfl | hx
    · exact t.render_ne0 x hx
    · decide
    · exact renderList_ne0 (t' :: ts) x hx

/-- `find` at the start of a numeral: the separator is after the numeral and inside of the list. -/
theorem find_spec {t : List Char} (ht : Tail t) (c : Char) (hc : c = '-' ∨ c = ',') (pre body : List Char) (ds : Numeral)
    (listEnd : Nat) (hb : ∀ x ∈ body, x ≠ '\x00') (he : pre.length + ds.length + body.length ≤ listEnd) :
    ∃ k, find (pre ++ (ds.render ++ (body ++ t))) listEnd pre.length c = .ok k ∧
      ∀ i, k = some i → pre.length + ds.length ≤ i ∧ i < listEnd := by
  unfold find
  obtain ⟨k, e, hk⟩ := strchr_body ht c hc body hb
  have hl : ds.render.length = ds.length := by simp [Numeral.render]
  rw [List.drop_left, strchr_skip c _ ds.render (fun x hx => by
    have := render_ne0 ds x hx
    rcases hc with rfl | rfl
    · exact ⟨this.1, this.2.2.1⟩
    · exact ⟨this.2.1, this.2.2.1⟩), e]
  rcases k with _ | k
  · exact ⟨none, rfl, by simp⟩
  · have hk' := hk k rfl
    refine ⟨some (pre.length + (k + ds.length)), ?_, ?_⟩
    · simp only [bind, Except.bind, pure, Except.pure, Option.map_some]
      rw [if_pos (by rw [hl]; omega), hl]
    · intro i hi
      simp at hi
      omega

theorem parseLp_spec (riscv : Bool) (pre s : List Char) (ds : Numeral) (listEnd maxLp : Nat) (end_ : Option Nat)
    (hs : Stops s) (hd : ds.Ok maxLp) (he : ∀ i, end_ = some i → pre.length + ds.length ≤ i)
    (hl : pre.length + ds.length ≤ listEnd) :
    parseLp riscv (pre ++ (ds.render ++ s)) listEnd maxLp end_ pre.length = .ok (ds.value, pre.length + ds.length) := by
  obtain ⟨d0, d9, dm⟩ := hd
  unfold parseLp
  have key : ∀ e, pre.length + ds.length ≤ e →
      (do
        let __discr ← parseDigits (pre ++ (ds.render ++ s)) e pre.length
        match __discr with
        | (ok, pos, lp) =>
          if (!ok) = true then Except.error Fault.abort
          else
            if maxLp < (if riscv = true then min lp maxLp else lp) then Except.error Fault.abort
            else if e < pos then Except.error Fault.abort
            else pure (if riscv = true then min lp maxLp else lp, pos) : M (Nat × Nat)) =
      .ok (ds.value, pre.length + ds.length) := by
    intro e h
    rw [parseDigits_spec pre s ds e hs d9 (by omega) h, ok_bind']
    have hmin : (if riscv = true then min ds.value maxLp else ds.value) = ds.value := by
      cases riscv
      · rfl
      · exact Nat.min_eq_left dm
    simp only [Bool.not_true, Bool.false_eq_true, if_false]
    rw [hmin, if_neg (by omega), if_neg (by omega)]
    rfl
  rcases end_ with _ | i
  · exact key listEnd hl
  · exact key (min i listEnd) (by have := he i rfl; omega)

theorem minFound_ge (x y : Option Nat) (b : Nat) (hx : ∀ i, x = some i → b ≤ i) (hy : ∀ i, y = some i → b ≤ i) :
    ∀ i, minFound x y = some i → b ≤ i := by
  intro i hi
  rcases x with _ | x <;> rcases y with _ | y
  · simp [minFound] at hi
  · exact hy i hi
  · exact hx i hi
  · simp [minFound] at hi
    have := hx x rfl
    have := hy y rfl
    omega

theorem stops_cons (c : Char) (s : List Char) (h : isDigit c = false) : Stops (c :: s) := ⟨c, s, rfl, h⟩

theorem readAt_mid {α : Type} (pre s : List α) (c : α) (n : Nat) (h : n = pre.length) :
    readAt (pre ++ c :: s) n = .ok c := by
  subst h
  rw [readAt_of_lt (by simp)]
  simp

/-- One well-formed term, followed by a comma or the tail. -/
theorem expandTerm_spec (riscv : Bool) (pre body t : List Char) (ht : Tail t) (term : Term) (listEnd maxLp : Nat)
    (hterm : term.Ok maxLp) (expanded : List Nat) (hb : ∀ x ∈ body, x ≠ '\x00')
    (hbt : ∃ c s', body ++ t = c :: s' ∧ (c = ',' ∨ c = '\x00' ∨ c = '\n'))
    (he : pre.length + term.render.length + body.length ≤ listEnd) :
    expandTerm riscv (pre ++ (term.render ++ (body ++ t))) listEnd maxLp expanded pre.length =
      .ok (expanded ++ term.cpus, pre.length + term.render.length) := by
  obtain ⟨c, s', ec, hc⟩ := hbt
  have hst : Stops (body ++ t) := by
    rw [ec]
    apply stops_cons
    rcases hc with rfl | rfl | rfl <;> decide
  cases term with
  | one n =>
    have hl : n.render.length = n.length := by simp [Numeral.render]
    simp only [Term.render, hl] at he ⊢
    obtain ⟨k1, e1, h1⟩ := find_spec ht '-' (by simp) pre body n listEnd hb (by omega)
    obtain ⟨k2, e2, h2⟩ := find_spec ht ',' (by simp) pre body n listEnd hb (by omega)
    unfold expandTerm
    rw [e1, ok_bind', e2, ok_bind', parseLp_spec riscv pre (body ++ t) n listEnd maxLp _ hst hterm
      (minFound_ge k1 k2 _ (fun i hi => (h1 i hi).1) (fun i hi => (h2 i hi).1)) (by omega), ok_bind']
    simp only
    have er : readAt (pre ++ (n.render ++ (body ++ t))) (pre.length + n.length) = .ok c := by
      rw [ec, ← List.append_assoc]
      exact readAt_mid (pre ++ n.render) s' c _ (by simp [hl])
    rw [er, ok_bind', if_neg (by rcases hc with rfl | rfl | rfl <;> decide)]
    rfl
  | range a b =>
    obtain ⟨ha, hb', hab⟩ := hterm
    have hla : a.render.length = a.length := by simp [Numeral.render]
    have hlb : b.render.length = b.length := by simp [Numeral.render]
    simp only [Term.render, List.length_append, List.length_cons, hla, hlb] at he ⊢
    have hb1 : ∀ x ∈ '-' :: (b.render ++ body), x ≠ '\x00' := by
      intro x hx
      simp only [List.mem_cons, List.mem_append] at hx
      rcases hx with rfl | hx | hx
      · decide
      · exact (render_ne0 b x hx).2.2.1
      · exact hb x hx
    have eq1 : pre ++ ((a.render ++ '-' :: b.render) ++ (body ++ t)) =
        pre ++ (a.render ++ (('-' :: (b.render ++ body)) ++ t)) := by simp
    have eq2 : pre ++ (a.render ++ (('-' :: (b.render ++ body)) ++ t)) =
        (pre ++ a.render ++ ['-']) ++ (b.render ++ (body ++ t)) := by simp
    obtain ⟨k1, e1, h1⟩ := find_spec ht '-' (by simp) pre ('-' :: (b.render ++ body)) a listEnd hb1
      (by simp [hlb]; omega)
    obtain ⟨k2, e2, h2⟩ := find_spec ht ',' (by simp) pre ('-' :: (b.render ++ body)) a listEnd hb1
      (by simp [hlb]; omega)
    rw [eq1]
    unfold expandTerm
    rw [e1, ok_bind', e2, ok_bind', parseLp_spec riscv pre (('-' :: (b.render ++ body)) ++ t) a listEnd maxLp _
      (stops_cons '-' _ (by decide)) ha
      (minFound_ge k1 k2 _ (fun i hi => (h1 i hi).1) (fun i hi => (h2 i hi).1)) (by omega), ok_bind']
    simp only
    have er : readAt (pre ++ (a.render ++ (('-' :: (b.render ++ body)) ++ t))) (pre.length + a.length) = .ok '-' := by
      rw [← List.append_assoc]
      exact readAt_mid (pre ++ a.render) _ '-' _ (by simp [hla])
    rw [er, ok_bind', if_pos rfl, eq2]
    have ep : pre.length + a.length + 1 = (pre ++ a.render ++ ['-']).length := by simp [hla]; omega
    obtain ⟨k3, e3, h3⟩ := find_spec ht ',' (by simp) (pre ++ a.render ++ ['-']) body b listEnd hb
      (by simp [hla]; omega)
    rw [ep, e3, ok_bind', parseLp_spec riscv (pre ++ a.render ++ ['-']) (body ++ t) b listEnd maxLp _ hst hb'
      (fun i hi => (h3 i hi).1) (by simp [hla]; omega), ok_bind']
    simp only
    rw [if_neg (by omega)]
    simp only [Term.cpus]
    congr 2
    simp [hla]; omega

theorem renderList_cons2 (t t' : Term) (ts : List Term) :
    renderList (t :: t' :: ts) = t.render ++ ',' :: renderList (t' :: ts) := rfl

theorem Term.render_pos (t : Term) (m : Nat) (h : t.Ok m) : 0 < t.render.length := by
  cases t with
  | one n => have := h.1; simpa [Term.render, Numeral.render] using this
  | range a b => simp [Term.render]

theorem expandLoop_spec (riscv : Bool) (t : List Char) (ht : Tail t) (listEnd maxLp : Nat) :
    ∀ (ts : List Term) (pre : List Char) (fuel : Nat) (expanded : List Nat), ts ≠ [] → (∀ x ∈ ts, x.Ok maxLp) →
      ts.length ≤ fuel → pre.length + (renderList ts).length ≤ listEnd →
      listEnd ≤ pre.length + (renderList ts).length + t.length →
      expandLoop riscv (pre ++ (renderList ts ++ t)) listEnd maxLp fuel expanded pre.length =
        .ok (expanded ++ (ts.map Term.cpus).flatten)
  | [], _, _, _, h, _, _, _, _ => absurd rfl h
  | _ :: _, _, 0, _, _, _, h, _, _ => by simp at h
  | [term], pre, fuel + 1, expanded, _, hok, _, h1, h2 => by
    have hterm := hok term (by simp)
    simp only [renderList] at h1 h2 ⊢
    have e := expandTerm_spec riscv pre [] t ht term listEnd maxLp hterm expanded (by simp)
      (by obtain ⟨rest, rfl | rfl⟩ := ht
          · exact ⟨_, _, rfl, by simp⟩
          · exact ⟨_, _, rfl, by simp⟩) (by simpa using h1)
    rw [List.nil_append] at e
    unfold expandLoop
    rw [e, ok_bind']
    simp only
    by_cases hend : pre.length + term.render.length = listEnd
    · rw [if_pos hend]
      simp
      rfl
    · rw [if_neg hend]
      obtain ⟨c, s, et, hc⟩ : ∃ c s, t = c :: s ∧ (c = '\x00' ∨ c = '\n') := by
        obtain ⟨rest, rfl | rfl⟩ := ht
        · exact ⟨_, _, rfl, by simp⟩
        · exact ⟨_, _, rfl, by simp⟩
      have er : readAt (pre ++ (term.render ++ t)) (pre.length + term.render.length) = .ok c := by
        rw [et, ← List.append_assoc]
        exact readAt_mid _ _ _ _ (by simp)
      rw [er, ok_bind', if_pos hc]
      simp
      rfl
  | term :: term' :: ts, pre, fuel + 1, expanded, _, hok, hf, h1, h2 => by
    have hterm := hok term (by simp)
    rw [renderList_cons2] at h1 h2 ⊢
    simp only [List.length_append, List.length_cons] at h1 h2
    have e := expandTerm_spec riscv pre (',' :: renderList (term' :: ts)) t ht term listEnd maxLp hterm expanded
      (by
        intro x hx
        simp only [List.mem_cons] at hx
        rcases hx with rfl | hx
        · decide
        · exact renderList_ne0 _ x hx)
      ⟨',', _, rfl, by simp⟩ (by simp; omega)
    have eq1 : pre ++ ((term.render ++ ',' :: renderList (term' :: ts)) ++ t) =
        pre ++ (term.render ++ ((',' :: renderList (term' :: ts)) ++ t)) := by simp
    have eq2 : pre ++ (term.render ++ ((',' :: renderList (term' :: ts)) ++ t)) =
        (pre ++ term.render ++ [',']) ++ (renderList (term' :: ts) ++ t) := by simp
    rw [eq1]
    unfold expandLoop
    rw [e, ok_bind']
    simp only
    rw [if_neg (by omega)]
    have er : readAt (pre ++ (term.render ++ ((',' :: renderList (term' :: ts)) ++ t)))
        (pre.length + term.render.length) = .ok ',' := by
      rw [← List.append_assoc]
      exact readAt_mid _ _ _ _ (by simp)
    rw [er, ok_bind', if_neg (by decide), if_pos rfl, eq2]
    have ep : pre.length + term.render.length + 1 = (pre ++ term.render ++ [',']).length := by simp; omega
    rw [ep, expandLoop_spec riscv t ht listEnd maxLp (term' :: ts) _ fuel _ (by simp)
      (fun x hx => hok x (by simp [List.mem_cons] at hx ⊢; exact Or.inr hx)) (by simpa using hf)
      (by simp; omega) (by simp; omega)]
    simp

theorem length_le_render : ∀ (ts : List Term), ts.length ≤ (renderList ts).length + 1
  | [] => by simp
  | [t] => by simp
  | t :: t' :: ts => by
    have := length_le_render (t' :: ts)
    rw [renderList_cons2]
    simp at this ⊢
    omega

/-- C37: every well-formed list yields the listed processors, in order. `t` is what follows in the buffer; `listEnd` may or may
not include the newline and the terminator. -/
theorem C37_expand (riscv : Bool) (ts : List Term) (hne : ts ≠ []) (maxLp : Nat) (hok : ∀ x ∈ ts, x.Ok maxLp)
    (t : List Char) (ht : Tail t) (listEnd : Nat) (h1 : (renderList ts).length ≤ listEnd)
    (h2 : listEnd ≤ (renderList ts ++ t).length) :
    expandList riscv (renderList ts ++ t) listEnd maxLp = .ok (ts.map Term.cpus).flatten := by
  unfold expandList
  have := length_le_render ts
  have := expandLoop_spec riscv t ht listEnd maxLp ts [] ((renderList ts ++ t).length + 1) [] hne hok
    (by simp; omega) (by simpa using h1) (by simpa using h2)
  simpa using this

/-! ### What is accepted -/

theorem bind_ok {α β : Type} {x : M α} {f : α → M β} {b : β} (h : (x >>= f) = .ok b) : ∃ a, x = .ok a ∧ f a = .ok b := by
  cases x with
  | error e => simp [bind, Except.bind] at h
  | ok a => exact ⟨a, rfl, h⟩

theorem exists_digit (c : Char) (h : isDigit c = true) : ∃ d : Fin 10, digitChar d = c := by
  unfold isDigit at h
  simp only [Bool.and_eq_true, decide_eq_true_eq] at h
  have h1 : 48 ≤ c.toNat := h.1
  have h2 : c.toNat ≤ 57 := h.2
  refine ⟨⟨c.toNat - 48, by omega⟩, ?_⟩
  unfold digitChar
  have : '0'.toNat + (c.toNat - 48) = c.toNat := by
    have : '0'.toNat = 48 := rfl
    omega
  simp only [this]
  exact Char.ofNat_toNat c

theorem digitsLoop_inv : ∀ (n : Nat) (s : List Char) (used out u o : Nat), digitsLoop n s used out = .ok (u, o) →
    ∃ (ds : Numeral) (rest : List Char), s = ds.render ++ rest ∧ ds.length ≤ n ∧ u = used + ds.length ∧
      o = ds.foldl (fun (n : Nat) (d : Fin 10) => n * 10 + d) out
  | 0, s, used, out, u, o, h => by
    simp only [digitsLoop, Except.ok.injEq, Prod.mk.injEq] at h
    exact ⟨[], s, rfl, by simp, by simp [h.1], by simp [h.2]⟩
  | n + 1, [], used, out, u, o, h => by simp [digitsLoop] at h
  | n + 1, c :: s, used, out, u, o, h => by
    rw [digitsLoop] at h
    cases hc : isDigit c
    · rw [hc] at h
      simp only [Bool.false_eq_true, if_false, Except.ok.injEq, Prod.mk.injEq] at h
      exact ⟨[], c :: s, rfl, by simp, by simp [h.1], by simp [h.2]⟩
    · rw [hc] at h
      simp only [if_true] at h
      obtain ⟨d, rfl⟩ := exists_digit c hc
      rw [digitChar_val] at h
      obtain ⟨ds, rest, e1, e2, e3, e4⟩ := digitsLoop_inv n s _ _ u o h
      exact ⟨d :: ds, rest, by simp [Numeral.render, e1], by simpa using e2, by simp [e3]; omega, by simpa using e4⟩

theorem parseDigits_inv (pre s : List Char) (e pos : Nat) (ok : Bool) (lp : Nat)
    (h : parseDigits (pre ++ s) e pre.length = .ok (ok, pos, lp)) :
    ok = false ∨ ∃ (ds : Numeral) (rest : List Char), s = ds.render ++ rest ∧ ds.length ≤ 9 ∧ pos = pre.length + ds.length ∧
      lp = ds.value ∧ 0 < pos ∧ pos ≤ e := by
  unfold parseDigits at h
  by_cases hle : pre.length ≤ e
  · rw [if_pos hle] at h
    simp only at h
    obtain ⟨⟨u, o⟩, h3, h4⟩ := bind_ok h
    rw [List.drop_left] at h3
    obtain ⟨ds, rest, e1, e2, e3, e4⟩ := digitsLoop_inv _ _ _ _ _ _ h3
    simp only at h4
    by_cases h0 : pre.length + u = 0
    · rw [if_pos h0] at h4
      cases h4
      exact Or.inl rfl
    · rw [if_neg h0] at h4
      cases h4
      exact Or.inr ⟨ds, rest, e1, by omega, by omega, e4, by omega, by omega⟩
  · rw [if_neg hle] at h
    cases h

theorem parseLp_inv (pre s : List Char) (listEnd maxLp : Nat) (end_ : Option Nat) (lp pos : Nat)
    (h : parseLp false (pre ++ s) listEnd maxLp end_ pre.length = .ok (lp, pos)) :
    ∃ (ds : Numeral) (rest : List Char), s = ds.render ++ rest ∧ ds.length ≤ 9 ∧ pos = pre.length + ds.length ∧
      lp = ds.value ∧ ds.value ≤ maxLp ∧ 0 < pos ∧ pos ≤ listEnd := by
  have key : ∀ e, e ≤ listEnd →
      (do
        let __discr ← parseDigits (pre ++ s) e pre.length
        match __discr with
        | (ok, pos, lp) =>
          if (!ok) = true then Except.error Fault.abort
          else
            if maxLp < lp then Except.error Fault.abort
            else if e < pos then Except.error Fault.abort
            else pure (lp, pos) : M (Nat × Nat)) = .ok (lp, pos) →
      ∃ (ds : Numeral) (rest : List Char), s = ds.render ++ rest ∧ ds.length ≤ 9 ∧ pos = pre.length + ds.length ∧
      lp = ds.value ∧ ds.value ≤ maxLp ∧ 0 < pos ∧ pos ≤ listEnd := by
    intro e hel h
    obtain ⟨⟨ok, pos1, lp1⟩, h1, h2⟩ := bind_ok h
    simp only at h2
    rcases parseDigits_inv pre s e pos1 ok lp1 h1 with rfl | ⟨ds, rest, e1, e2, e3, e4, e5, e6⟩
    · simp at h2
    · cases ok
      · simp at h2
      · simp only [Bool.not_true, Bool.false_eq_true, if_false] at h2
        by_cases hm : maxLp < lp1
        · rw [if_pos hm] at h2
          cases h2
        · rw [if_neg hm, if_neg (by omega)] at h2
          cases h2
          exact ⟨ds, rest, e1, e2, e3, e4, by omega, e5, by omega⟩
  unfold parseLp at h
  rcases end_ with _ | i
  · exact key listEnd (by omega) h
  · exact key (min i listEnd) (by omega) h

/-- The numerals of a term. -/
def Term.numerals : Term → List Numeral
  | .one n => [n]
  | .range a b => [a, b]

theorem readAt_inv {α : Type} (pre s : List α) (c : α) (n : Nat) (hn : n = pre.length) (h : readAt (pre ++ s) n = .ok c) :
    ∃ s', s = c :: s' := by
  subst hn
  cases s with
  | nil =>
    rw [readAt_of_ge (by simp)] at h
    cases h
  | cons x s =>
    rw [readAt_mid _ _ _ _ rfl] at h
    cases h
    exact ⟨s, rfl⟩

theorem expandTerm_inv (pre s : List Char) (listEnd maxLp : Nat) (expanded v : List Nat) (pos : Nat)
    (h : expandTerm false (pre ++ s) listEnd maxLp expanded pre.length = .ok (v, pos)) :
    ∃ (term : Term) (rest : List Char), s = term.render ++ rest ∧ pos = pre.length + term.render.length ∧
      v = expanded ++ term.cpus ∧ (∀ n ∈ term.numerals, n.length ≤ 9 ∧ n.value ≤ maxLp) ∧
      (pre = [] → ∀ n, term.numerals.head? = some n → n ≠ []) ∧ pos ≤ listEnd := by
  unfold expandTerm at h
  obtain ⟨k1, _, h⟩ := bind_ok h
  obtain ⟨k2, _, h⟩ := bind_ok h
  obtain ⟨⟨first, pos1⟩, h1, h⟩ := bind_ok h
  obtain ⟨a, r1, e1, e2, e3, e4, e5, e6, e6'⟩ := parseLp_inv pre s listEnd maxLp _ first pos1 h1
  simp only at h
  obtain ⟨c, hc, h⟩ := bind_ok h
  have hla : a.render.length = a.length := by simp [Numeral.render]
  have ha0 : pre = [] → a ≠ [] := by
    rintro rfl rfl
    simp at e3
    omega
  rw [e1, ← List.append_assoc] at hc
  obtain ⟨r2, e7⟩ := readAt_inv (pre ++ a.render) r1 c pos1 (by simp [hla, e3]) hc
  split at h
  · rename_i hdash
    obtain ⟨k3, _, h⟩ := bind_ok h
    obtain ⟨⟨last, pos2⟩, h2, h⟩ := bind_ok h
    have eq : pre ++ s = (pre ++ a.render ++ ['-']) ++ r2 := by rw [e1, e7, hdash]; simp
    have ep : pos1 + 1 = (pre ++ a.render ++ ['-']).length := by simp [hla, e3]; omega
    rw [eq, ep] at h2
    obtain ⟨b, r3, f1, f2, f3, f4, f5, f6, f6'⟩ := parseLp_inv _ r2 listEnd maxLp _ last pos2 h2
    have hlb : b.render.length = b.length := by simp [Numeral.render]
    simp only at h
    split at h
    · cases h
    · cases h
      refine ⟨.range a b, r3, by rw [e1, e7, f1, hdash]; simp [Term.render], ?_, by rw [e4, f4]; rfl, ?_, ?_, f6'⟩
      · rw [f3]; simp [Term.render, hla, hlb]; omega
      · intro n hn
        simp only [Term.numerals, List.mem_cons, List.not_mem_nil, or_false] at hn
        rcases hn with rfl | rfl
        · exact ⟨e2, e5⟩
        · exact ⟨f2, f5⟩
      · intro hp n hn
        simp [Term.numerals] at hn
        subst hn
        exact ha0 hp
  · cases h
    refine ⟨.one a, r1, e1, by simp [Term.render, hla, e3], by rw [e4]; rfl, ?_, ?_, e6'⟩
    · intro n hn
      simp only [Term.numerals, List.mem_cons, List.not_mem_nil, or_false] at hn
      subst hn
      exact ⟨e2, e5⟩
    · intro hp n hn
      simp [Term.numerals] at hn
      subst hn
      exact ha0 hp

theorem expandLoop_inv (listEnd maxLp : Nat) : ∀ (fuel : Nat) (pre s : List Char) (expanded v : List Nat),
    expandLoop false (pre ++ s) listEnd maxLp fuel expanded pre.length = .ok v →
    ∃ (ts : List Term) (rest : List Char), ts ≠ [] ∧ s = renderList ts ++ rest ∧ v = expanded ++ (ts.map Term.cpus).flatten ∧
      (∀ t ∈ ts, ∀ n ∈ t.numerals, n.length ≤ 9 ∧ n.value ≤ maxLp) ∧
      (pre = [] → ∀ t n, ts.head? = some t → t.numerals.head? = some n → n ≠ []) ∧
      (pre.length + (renderList ts).length = listEnd ∨ ∃ c r, rest = c :: r ∧ (c = '\x00' ∨ c = '\n'))
  | 0, _, _, _, _, h => by simp [expandLoop] at h
  | fuel + 1, pre, s, expanded, v, h => by
    unfold expandLoop at h
    obtain ⟨⟨v1, pos1⟩, h1, h⟩ := bind_ok h
    obtain ⟨term, r1, e1, e2, e3, e4, e5, _⟩ := expandTerm_inv pre s listEnd maxLp expanded v1 pos1 h1
    simp only at h
    split at h
    · rename_i hend
      cases h
      refine ⟨[term], r1, by simp, e1, by simp [e3], ?_, ?_, Or.inl (by simp only [renderList]; omega)⟩
      · intro t ht n hn
        simp only [List.mem_singleton] at ht
        subst ht
        exact e4 n hn
      · intro hp t n ht hn
        simp at ht
        subst ht
        exact e5 hp n hn
    · obtain ⟨c, hc, h⟩ := bind_ok h
      rw [e1, ← List.append_assoc] at hc
      obtain ⟨r2, e6⟩ := readAt_inv (pre ++ term.render) r1 c pos1 (by simp [e2]) hc
      split at h
      · rename_i hterm
        cases h
        refine ⟨[term], r1, by simp, e1, by simp [e3], ?_, ?_, Or.inr ⟨c, r2, e6, hterm⟩⟩
        · intro t ht n hn
          simp only [List.mem_singleton] at ht
          subst ht
          exact e4 n hn
        · intro hp t n ht hn
          simp at ht
          subst ht
          exact e5 hp n hn
      · split at h
        · rename_i hcomma
          have eq : pre ++ s = (pre ++ term.render ++ [',']) ++ r2 := by rw [e1, e6, hcomma]; simp
          have ep : pos1 + 1 = (pre ++ term.render ++ [',']).length := by simp [e2]; omega
          rw [eq, ep] at h
          obtain ⟨ts, rest, g1, g2, g3, g4, g5, g6⟩ := expandLoop_inv listEnd maxLp fuel _ r2 v1 v h
          match ts, g1, g2, g3, g4, g6 with
          | t' :: ts, _, g2, g3, g4, g6 =>
            refine ⟨term :: t' :: ts, rest, by simp, ?_, ?_, ?_, ?_, ?_⟩
            · rw [e1, e6, hcomma, g2, renderList_cons2]; simp
            · rw [g3, e3]; simp
            · intro t ht n hn
              rw [List.mem_cons] at ht
              rcases ht with rfl | ht
              · exact e4 n hn
              · exact g4 t ht n hn
            · intro hp t n ht hn
              simp at ht
              subst ht
              exact e5 hp n hn
            · rcases g6 with g6 | g6
              · left
                rw [renderList_cons2]
                simp at g6 ⊢
                omega
              · exact Or.inr g6
        · cases h

/-- C37: whatever `ExpandList` accepts is a list of terms of at most nine digits each and at most `max_lp`, up to the end, a
terminator or a newline, and the result is its expansion. Malformed lists are thus rejected, except that all numerals but the
first may be missing (they count as zero) and ranges may be descending (they are empty): see the findings below. -/
theorem C37_accepts (buf : List Char) (listEnd maxLp : Nat) (v : List Nat)
    (h : expandList false buf listEnd maxLp = .ok v) :
    ∃ (ts : List Term) (rest : List Char), ts ≠ [] ∧ buf = renderList ts ++ rest ∧ v = (ts.map Term.cpus).flatten ∧
      (∀ t ∈ ts, ∀ n ∈ t.numerals, n.length ≤ 9 ∧ n.value ≤ maxLp) ∧
      (∀ t n, ts.head? = some t → t.numerals.head? = some n → n ≠ []) ∧
      ((renderList ts).length = listEnd ∨ ∃ c r, rest = c :: r ∧ (c = '\x00' ∨ c = '\n')) := by
  have := expandLoop_inv listEnd maxLp _ [] buf [] v h
  obtain ⟨ts, rest, h1, h2, h3, h4, h5, h6⟩ := this
  exact ⟨ts, rest, h1, h2, by simpa using h3, h4, h5 rfl, by simpa using h6⟩

/-- In particular every processor in the result is within bounds. -/
theorem C37_in_bounds (buf : List Char) (listEnd maxLp : Nat) (v : List Nat)
    (h : expandList false buf listEnd maxLp = .ok v) : ∀ lp ∈ v, lp ≤ maxLp := by
  obtain ⟨ts, rest, _, _, rfl, h4, _, _⟩ := C37_accepts buf listEnd maxLp v h
  intro lp hlp
  rw [List.mem_flatten] at hlp
  obtain ⟨l, hl, hlp⟩ := hlp
  rw [List.mem_map] at hl
  obtain ⟨t, ht, rfl⟩ := hl
  have := h4 t ht
  cases t with
  | one n =>
    simp [Term.cpus] at hlp
    have := this n (by simp [Term.numerals])
    omega
  | range a b =>
    simp only [Term.cpus, List.mem_map, List.mem_range] at hlp
    obtain ⟨k, hk, rfl⟩ := hlp
    have := this b (by simp [Term.numerals])
    omega

/-- Finding: the check for missing digits compares with position 0, so that missing numbers after the first count as 0: "1,",
"5-,7" and "3,,4" are accepted. -/
theorem C37_finding_missing_number :
    expandList false ("1,\n\x00".toList) 4 9 = .ok [1, 0] ∧
    expandList false ("0-,7\n\x00".toList) 6 9 = .ok [0, 7] ∧
    expandList false ("3,,4\n\x00".toList) 6 9 = .ok [3, 0, 4] := by
  refine ⟨?_, ?_, ?_⟩ <;> decide

/-- Finding: descending ranges are accepted as empty or make `reserve` throw. -/
theorem C37_finding_descending :
    expandList false ("3-2\n\x00".toList) 5 9 = .ok [] ∧ expandList false ("5-2\n\x00".toList) 5 9 = .error .abort := by
  refine ⟨?_, ?_⟩ <;> decide

/-- Finding: an empty list, which the kernel reports for NUMA nodes without processors, aborts the program. -/
theorem C37_finding_empty_list (riscv : Bool) (maxLp : Nat) : expandList riscv ("\n\x00".toList) 2 maxLp = .error .abort := by
  cases riscv <;> rfl

/-- Finding: so does a processor above the (possibly clamped or under-reported) total, except on RISC-V. -/
theorem C37_finding_above_max (n : Numeral) (maxLp : Nat) (h9 : n.length ≤ 9) (h0 : 0 < n.length) (h : maxLp < n.value) :
    expandList false (n.render ++ ['\n', '\x00']) (n.length + 2) maxLp = .error .abort := by
  unfold expandList expandLoop expandTerm
  have ht : Tail ['\n', '\x00'] := ⟨[], Or.inr rfl⟩
  obtain ⟨k1, e1, h1⟩ := find_spec ht '-' (by simp) [] [] n (n.length + 2) (by simp) (by simp)
  obtain ⟨k2, e2, h2⟩ := find_spec ht ',' (by simp) [] [] n (n.length + 2) (by simp) (by simp)
  simp only [List.nil_append, List.length_nil] at e1 e2 h1 h2
  rw [e1, ok_bind', e2, ok_bind']
  have hm := minFound_ge k1 k2 _ (fun i hi => (h1 i hi).1) (fun i hi => (h2 i hi).1)
  unfold parseLp
  generalize minFound k1 k2 = m at hm
  have key : ∀ e, n.length ≤ e → parseDigits (n.render ++ ['\n', '\x00']) e 0 = .ok (true, n.length, n.value) := by
    intro e he
    have := parseDigits_spec [] ['\n', '\x00'] n e (stops_cons '\n' _ (by decide)) h9 (by simpa using h0) (by simpa using he)
    simpa using this
  rcases m with _ | i
  · simp only
    rw [key _ (by omega), ok_bind']
    simp only [Bool.not_true, Bool.false_eq_true, if_false]
    rw [if_pos h]
    rfl
  · simp only
    rw [key _ (by have := hm i rfl; omega), ok_bind']
    simp only [Bool.not_true, Bool.false_eq_true, if_false]
    rw [if_pos h]
    rfl

/-- Non-vacuity: "0-3,8\n". -/
theorem C37_nonvacuous :
    let ts : List Term := [.range [0] [3], .one [8]]
    renderList ts = "0-3,8".toList ∧ (∀ x ∈ ts, x.Ok 15) ∧
    expandList false ("0-3,8\n\x00".toList) 7 15 = .ok [0, 1, 2, 3, 8] := by
  refine ⟨by decide, ?_, by decide⟩
  intro x hx
  simp only [List.mem_cons, List.not_mem_nil, or_false] at hx
  rcases hx with rfl | rfl
  · exact ⟨⟨by decide, by decide, by decide⟩, ⟨by decide, by decide, by decide⟩, by decide⟩
  · exact ⟨by decide, by decide, by decide⟩

/-! ### Numbers with a suffix -/

/-- The unit of a suffix. -/
def suffixUnit : List Char → Option Nat
  | [] => some 1
  | ['K'] => some (2 ^ 10)
  | ['M'] => some (2 ^ 20)
  | ['K', 'M'] => some (2 ^ 30)
  | _ => none

/-- C37: a number of one to nine digits with suffix is read exactly. -/
theorem C37_number (n : Numeral) (h0 : 0 < n.length) (h9 : n.length ≤ 9) (suffix : List Char) (u : Nat)
    (hu : suffixUnit suffix = some u) (t : List Char) (ht : Tail t) (len : Nat) (hlen : n.length ≤ len) :
    parseNumber (n.render ++ (suffix ++ t)) len = .ok (some (n.value * u)) := by
  have hl : n.render.length = n.length := by simp [Numeral.render]
  obtain ⟨c, s, et, hc⟩ : ∃ c s, t = c :: s ∧ (c = '\x00' ∨ c = '\n') := by
    obtain ⟨rest, rfl | rfl⟩ := ht
    · exact ⟨_, _, rfl, by simp⟩
    · exact ⟨_, _, rfl, by simp⟩
  have hdig : isDigit c = false ∧ c ≠ 'K' ∧ c ≠ 'M' := by rcases hc with rfl | rfl <;> decide
  have hneg : ¬ (c ≠ '\x00' ∧ c ≠ '\n') := by rcases hc with rfl | rfl <;> decide
  have hst : Stops (suffix ++ t) := by
    rw [et]
    unfold suffixUnit at hu
    split at hu
    · exact stops_cons _ _ hdig.1
    · exact stops_cons _ _ (by decide)
    · exact stops_cons _ _ (by decide)
    · exact stops_cons _ _ (by decide)
    · cases hu
  have e := parseDigits_spec [] (suffix ++ t) n len hst h9 (by simpa using h0) (by simpa using hlen)
  simp only [List.nil_append, List.length_nil, Nat.zero_add] at e
  unfold parseNumber
  rw [e, ok_bind']
  simp only [Bool.not_true, Bool.false_eq_true, if_false]
  subst et
  unfold suffixUnit at hu
  split at hu
  · cases hu
    rw [List.nil_append, readAt_mid _ _ _ _ hl.symm, ok_bind']
    simp only [hdig.2.1, if_false]
    rw [readAt_mid _ _ _ _ hl.symm, ok_bind']
    simp only [hdig.2.2, if_false]
    rw [readAt_mid _ _ _ _ hl.symm, ok_bind', if_neg hneg, Nat.mul_one]
    rfl
  · cases hu
    have e2 : n.render ++ 'K' :: (c :: s) = (n.render ++ ['K']) ++ c :: s := by simp
    have e3 : n.length + 1 = (n.render ++ ['K']).length := by simp [hl]
    rw [show n.render ++ (['K'] ++ c :: s) = n.render ++ 'K' :: (c :: s) from rfl,
      readAt_mid n.render (c :: s) 'K' _ hl.symm, ok_bind']
    simp only [if_true]
    rw [e2, readAt_mid _ _ _ _ e3, ok_bind']
    simp only [hdig.2.2, if_false]
    rw [readAt_mid _ _ _ _ e3, ok_bind', if_neg hneg]
    rfl
  · cases hu
    have e2 : n.render ++ 'M' :: (c :: s) = (n.render ++ ['M']) ++ c :: s := by simp
    have e3 : n.length + 1 = (n.render ++ ['M']).length := by simp [hl]
    rw [show n.render ++ (['M'] ++ c :: s) = n.render ++ 'M' :: (c :: s) from rfl,
      readAt_mid n.render (c :: s) 'M' _ hl.symm, ok_bind']
    have hMK : ¬ ('M' = 'K') := by decide
    simp only [hMK, if_false]
    rw [readAt_mid n.render (c :: s) 'M' _ hl.symm, ok_bind']
    simp only [if_true]
    rw [e2, readAt_mid _ _ _ _ e3, ok_bind', if_neg hneg]
    rfl
  · cases hu
    have e1 : n.render ++ 'K' :: 'M' :: c :: s = (n.render ++ ['K']) ++ 'M' :: (c :: s) := by simp
    have e2 : n.render ++ 'K' :: 'M' :: c :: s = (n.render ++ ['K', 'M']) ++ c :: s := by simp
    have e3 : n.length + 1 = (n.render ++ ['K']).length := by simp [hl]
    have e4 : n.length + 1 + 1 = (n.render ++ ['K', 'M']).length := by simp [hl]
    rw [show n.render ++ (['K', 'M'] ++ c :: s) = n.render ++ 'K' :: ('M' :: c :: s) from rfl,
      readAt_mid n.render ('M' :: c :: s) 'K' _ hl.symm, ok_bind']
    simp only [if_true]
    rw [e1, readAt_mid _ _ _ _ e3, ok_bind']
    simp only [if_true]
    rw [← e1, e2, readAt_mid _ _ _ _ e4, ok_bind', if_neg hneg]
    have : n.value * 2 ^ 10 * 2 ^ 20 = n.value * 2 ^ 30 := by norm_num [Nat.mul_assoc]
    rw [this]
    rfl
  · cases hu

/-- Finding: numbers of ten or more digits abort, although sysfs identifiers are opaque and can be that large. -/
theorem C37_finding_ten_digits (n : Numeral) (d : Fin 10) (h9 : n.length = 9) (rest : List Char) (len : Nat) (hlen : 9 ≤ len) :
    parseNumber (n.render ++ digitChar d :: rest) len = .error .abort := by
  have hl : n.render.length = n.length := by simp [Numeral.render]
  have key : ∀ (ds : Numeral) (used out : Nat) (s : List Char),
      digitsLoop ds.length (ds.render ++ s) used out = .ok (used + ds.length, ds.foldl (fun (n : Nat) (d : Fin 10) => n * 10 + d) out) := by
    intro ds
    induction ds with
    | nil => intro used out s; rfl
    | cons d ds ih =>
      intro used out s
      have := ih (used + 1) (out * 10 + d) s
      unfold Numeral.render at *
      simp only [List.map_cons, List.cons_append, List.length_cons, digitsLoop, digitChar_isDigit, if_true, digitChar_val,
        this, List.foldl_cons]
      congr 2
      omega
  have hd : digitChar d ≠ 'K' ∧ digitChar d ≠ 'M' ∧ (digitChar d ≠ '\x00' ∧ digitChar d ≠ '\n') := by revert d; decide
  unfold parseNumber parseDigits
  rw [if_pos (by omega)]
  simp only [List.drop_zero, Nat.zero_add, Nat.sub_zero]
  have hmin : min len 9 = n.length := by omega
  rw [hmin, key n 0 0 _, ok_bind']
  simp only [Nat.zero_add]
  rw [if_neg (by omega)]
  show (do
      let c ← readAt (n.render ++ digitChar d :: rest) n.length
      _ : M (Option Nat)) = _
  rw [readAt_mid _ _ _ _ hl.symm, ok_bind']
  simp only [hd.1, if_false]
  rw [readAt_mid _ _ _ _ hl.symm, ok_bind']
  simp only [hd.2.1, if_false]
  rw [readAt_mid _ _ _ _ hl.symm, ok_bind', if_pos hd.2.2]

end Topo
end Hwy
