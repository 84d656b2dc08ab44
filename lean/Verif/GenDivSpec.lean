import Verif.GenDiv
import Verif.GenDivLane

/-!
# Integer `Div` and `Mod`: the lanes
-/

namespace Hwy
namespace Emu
open CInt Flt

section
variable {F : Fmt} (hF : F = f32 ∨ F = f64)
include hF

theorem ut_lane : F.ut ∈ laneTys := by rcases hF with rfl | rfl <;> decide

theorem yi2f {t : Ty} {v : List Int} {N : Nat} {G : Nat → Int} (hv : Is t N v G) (hN : N ≤ cap F.ut)
    (hNt : N ≤ cap t) : Runs F.ut N (ConvertI2F F N v) (fun i => (ofInt F (G i) : Nat)) := by
  refine Runs.of ?_
  refine conv_lanes (ut_lane hF) hN (by rw [hv.1.len]; exact hNt) (fun i hi => ?_)
  refine ⟨_, rfl, ?_, by rw [hv.2 i hi]⟩
  exact (has_nat hF).2 (ofInt_lt (std_of hF) _)

theorem ydiv {a b : List Int} {N : Nat} {G H : Nat → Int} (ha : Is F.ut N a G) (hb : Is F.ut N b H) (hN : N ≤ cap F.ut) :
    Runs F.ut N (FDiv F N a b) (fun i => (fdivLane F (G i).toNat (H i).toNat : Nat)) := by
  unfold FDiv fmap2
  refine Runs.of ((map2_lanes ha.1 hb.1 hN (fun x y => ((fdivLane F x.toNat y.toNat : Nat) : Int)) (fun i _ => rfl) ?_).mono ?_)
  · intro i _
    exact (has_nat hF).2 (fdivLane_lt (std_of hF) _ _)
  · intro i x hi e
    rw [e, ha.2 i hi, hb.2 i hi]

theorem ymul {a b : List Int} {N : Nat} {G H : Nat → Int} (ha : Is F.ut N a G) (hb : Is F.ut N b H) (hN : N ≤ cap F.ut) :
    Runs F.ut N (FMul F N a b) (fun i => (fmul F (G i).toNat (H i).toNat : Nat)) := by
  unfold FMul fmap2
  refine Runs.of ((map2_lanes ha.1 hb.1 hN (fun x y => ((fmul F x.toNat y.toNat : Nat) : Int)) (fun i _ => rfl) ?_).mono ?_)
  · intro i _
    exact (has_nat hF).2 (fmul_lt (std_of hF) _ _)
  · intro i x hi e
    rw [e, ha.2 i hi, hb.2 i hi]

theorem yf2i {t : Ty} (ht : t ∈ convTys) {v : List Int} {N : Nat} {G : Nat → Int} (hv : Is F.ut N v G) (hN : N ≤ cap F.ut)
    (hNt : N ≤ cap t) : Runs t N (ConvertInRangeF2I F t N v) (fun i => inr F t (G i).toNat) := by
  refine Runs.of ?_
  refine conv_lanes (convTys_lane hF ht) hNt (by rw [hv.1.len]; exact hN) (fun i hi => ?_)
  obtain ⟨h1, h2, _⟩ := inr_spec hF ht (lane v i).toNat
  exact ⟨_, h1, h2, by rw [hv.2 i hi]⟩

end

theorem ydemote {tF tT : Ty} (hF : tF ∈ laneTys) (hT : tT ∈ laneTys) (hb : tT.bits < tF.bits)
    {N : Nat} (hN : N ≤ cap tF) {v : List Int} {G : Nat → Int} (hv : Is tF N v G) :
    Runs tT N (DemoteTo tF tT N v) (fun i => clamp tT (G i)) := by
  have := C49_demote hF hT hb hN hv.1
  refine Runs.of (this.mono fun i x hi e => by rw [e, hv.2 i hi])

theorem ydemote2 {tF tT : Ty} (hF : tF ∈ laneTys) (hT : tT ∈ laneTys) (hb : tF.bits = 2 * tT.bits)
    {NW : Nat} (hN : NW ≤ cap tF) {a b : List Int} {G H : Nat → Int} (ha : Is tF NW a G) (hb' : Is tF NW b H) :
    Runs tT (2 * NW) (OrderedDemote2To tF tT NW a b) (fun i => clamp tT (if i < NW then G i else H (i - NW))) := by
  have := C49_ordered_demote2 hF hT hb hN ha.1 hb'.1
  refine Runs.of (this.mono fun i x hi e => ?_)
  rw [e]
  split_ifs with h
  · rw [ha.2 i h]
  · rw [hb'.2 _ (by omega)]

theorem ycombine {t : Ty} (h : t ∈ laneTys) {H : Nat} (hH : 2 * H ≤ cap t) {hi lo : List Int} {G K : Nat → Int}
    (hh : Is t H hi G) (hl : Is t H lo K) :
    Runs t (2 * H) (Combine 0 (cap t) H hi lo) (fun i => if i < H then K i else G (i - H)) := by
  refine (C47_combine (0 : Int) hH hh.1.len hl.1.len).runs (fun r e => ?_) (fun i hi' => ?_)
  · unfold Combine at e
    cases e1 : copyLanes lo 0 (fresh (0 : Int) (cap t)) 0 H with
    | error x => rw [e1] at e; simp [bind, Except.bind] at e
    | ok w =>
      rw [e1] at e
      exact copyLanes_all (P := fun y => t.Has y) e hh.1.has (copyLanes_all (P := fun y => t.Has y) e1 hl.1.has (fresh_all (has_zero h)))
  · beta_reduce
    split_ifs with hc
    · exact hl.some (by omega) hc
    · exact hh.some (by omega) (by omega)

theorem yplower {tF tT : Ty} (hF : tF ∈ laneTys) (hT : tT ∈ laneTys) (hb : tT.bits = 2 * tF.bits) (hs : tF.sgn = tT.sgn)
    {H : Nat} (hH : 2 * H ≤ cap tF) {v : List Int} {G : Nat → Int} (hv : Is tF (2 * H) v G) :
    Runs tT H (PromoteLowerTo tF tT H v) G := by
  have hc := cap_double hT hF hb
  have hp := bits_pos hF
  refine Runs.bind (xlower hv hF (by omega) (H := H) (by omega)) fun w hw => ?_
  exact xpromote hw hF hT (by omega) (by rw [hs]; exact id) (by omega)

theorem ypupper {tF tT : Ty} (hF : tF ∈ laneTys) (hT : tT ∈ laneTys) (hb : tT.bits = 2 * tF.bits) (hs : tF.sgn = tT.sgn)
    {H : Nat} (hH : 2 * H ≤ cap tF) {v : List Int} {G : Nat → Int} (hv : Is tF (2 * H) v G) :
    Runs tT H (PromoteUpperTo tF tT H v) (fun i => G (H + i)) := by
  have hc := cap_double hT hF hb
  have hp := bits_pos hF
  refine Runs.bind (xupper hv hF (by omega) (H := H) (by omega)) fun w hw => ?_
  exact xpromote hw hF hT (by omega) (by rw [hs]; exact id) (by omega)

/-! ### Lanes of at most 32 bits -/

/-- A lane of `IntDivUsingFloatDiv` and of `IntDiv32`. -/
def qlane (F : Fmt) (t : Ty) (a b : Int) : Int := inr F t (fdivLane F (ofInt F a) (ofInt F b))

theorem qlane_eq {F : Fmt} (hF : F = f32 ∨ F = f64) {t : Ty} (ht : t ∈ convTys) {a b : Int} (ha : a.natAbs ≤ 2 ^ F.p)
    (hb : b.natAbs ≤ 2 ^ F.p) (h0 : b ≠ 0) (hr : t.Has (a.tdiv b)) : qlane F t a b = a.tdiv b := by
  have hbig : 2 * F.p + 2 ≤ F.unit := by rcases hF with rfl | rfl <;> decide
  obtain ⟨h1, h2⟩ := quot_lane (std_of hF) hbig ha hb h0
  have := (inr_spec hF ht (fdivLane F (ofInt F a) (ofInt F b))).2.2.1 h1
  rw [h2] at this
  exact this hr

/-- Division of whole vectors, in a format `F` (kept abstract). -/
theorem yquot {F : Fmt} (hF : F = f32 ∨ F = f64) {t : Ty} (hm : t ∈ convTys) {tI : Ty} {N : Nat} (hN : N ≤ cap F.ut)
    (hNt : N ≤ cap t) (hNI : N ≤ cap tI)
    {a b : List Int} {G H : Nat → Int} (ha : Is tI N a G) (hb : Is tI N b H) :
    Runs t N (do ConvertInRangeF2I F t N (← FDiv F N (← ConvertI2F F N a) (← ConvertI2F F N b)))
      (fun i => qlane F t (G i) (H i)) := by
  refine Runs.congr (Runs.bind (yi2f hF ha hN hNI) fun fa hfa =>
    Runs.bind (yi2f hF hb hN hNI) fun fb hfb =>
    Runs.bind (ydiv hF hfa hfb hN) fun q hq =>
    yf2i hF hm hq hN hNt) fun i hi => ?_
  beta_reduce
  rw [Int.toNat_natCast, Int.toNat_natCast, Int.toNat_natCast]
  rfl

theorem ydiv32 {t : Ty} (ht : t = i32 ∨ t = u32) {N : Nat} (hN : N ≤ 4) {a b : List Int} {G H : Nat → Int} (ha : Is t N a G)
    (hb : Is t N b H) : Runs t N (IntDivUsingFloatDiv t N a b) (fun i => qlane f32 t (G i) (H i)) := by
  have hc : cap t = 4 := by rcases ht with rfl | rfl <;> decide
  have hcf : cap f32.ut = 4 := by decide
  have hm : t ∈ convTys := by rcases ht with rfl | rfl <;> decide
  unfold IntDivUsingFloatDiv
  exact yquot (.inl rfl) hm (by omega) (by omega) (by omega) ha hb

/-- The quotient rules of a lane type. -/
def QuotOk (t : Ty) (a b r : Int) : Prop := b ≠ 0 → t.Has (a.tdiv b) → r = a.tdiv b

theorem tdiv_natAbs_le (a b : Int) : (a.tdiv b).natAbs ≤ a.natAbs := by
  rw [Int.natAbs_tdiv]; exact Nat.div_le_self _ _

theorem clamp_id {t : Ty} {x : Int} (h : t.Has x) : clamp t x = x := by
  have h' : t.lo ≤ x ∧ x ≤ t.hi := h
  unfold clamp
  omega

/-- Quotients of 16-bit values in 32-bit lanes. -/
theorem q16 {t : Ty} (ht : t = i32 ∨ t = u32) {a b : Int} (ha : a.natAbs ≤ 65536) (hb : b.natAbs ≤ 65536) (h0 : b ≠ 0)
    (hs : t.sgn = false → 0 ≤ a ∧ 0 ≤ b) : qlane f32 t a b = a.tdiv b := by
  have hm : t ∈ convTys := by rcases ht with rfl | rfl <;> decide
  have hp : f32.p = 23 := by decide
  refine qlane_eq (.inl rfl) hm (by rw [hp]; omega) (by rw [hp]; omega) h0 ?_
  have h1 := tdiv_natAbs_le a b
  rcases ht with rfl | rfl
  · show -2147483648 ≤ a.tdiv b ∧ a.tdiv b ≤ 2147483647
    omega
  · have := hs rfl
    have h2 := Int.tdiv_nonneg this.1 this.2
    show 0 ≤ a.tdiv b ∧ a.tdiv b ≤ 4294967295
    omega

theorem w16facts {t : Ty} (ht : t = i16 ∨ t = u16) : (wide t = i32 ∨ wide t = u32) ∧ wide t ∈ laneTys ∧ t ∈ laneTys ∧
    (wide t).bits = 2 * t.bits ∧ t.sgn = (wide t).sgn ∧ cap t = 8 ∧ cap (wide t) = 4 ∧
    (∀ x, t.Has x → x.natAbs ≤ 65536) ∧ (t.sgn = false → ∀ x, t.Has x → 0 ≤ x) := by
  rcases ht with rfl | rfl
  · refine ⟨.inl rfl, by decide, by decide, by decide, by decide, by decide, by decide, fun x h => ?_, fun h => by cases h⟩
    have h' : -32768 ≤ x ∧ x ≤ 32767 := h
    omega
  · refine ⟨.inr rfl, by decide, by decide, by decide, by decide, by decide, by decide, fun x h => ?_, fun _ x h => ?_⟩
    · have h' : 0 ≤ x ∧ x ≤ 65535 := h
      omega
    · have h' : 0 ≤ x ∧ x ≤ 65535 := h
      omega

/-- The lane function of 16-bit division. -/
def q16lane (t : Ty) (a b : Int) : Int := clamp t (qlane f32 (wide t) a b)

theorem q16lane_ok {t : Ty} (ht : t = i16 ∨ t = u16) {a b : Int} (ha : t.Has a) (hb : t.Has b) : QuotOk t a b (q16lane t a b) := by
  obtain ⟨hw, _, _, _, hs, _, _, hn, hz⟩ := w16facts ht
  intro h0 hr
  unfold q16lane
  rw [q16 hw (hn a ha) (hn b hb) h0 (fun h => by rw [← hs] at h; exact ⟨hz h a ha, hz h b hb⟩), clamp_id hr]

theorem ydiv16 {t : Ty} (ht : t = i16 ∨ t = u16) {N : Nat} (hN : N ∈ [1, 2, 4, 8]) {a b : List Int} {G H : Nat → Int}
    (ha : Is t N a G) (hb : Is t N b H) : Runs t N (IntDiv16 t N a b) (fun i => q16lane t (G i) (H i)) := by
  obtain ⟨hw, hwl, htl, hbits, hs, hc, hcw, _, _⟩ := w16facts ht
  have hp := bits_pos htl
  have hN' : N = 1 ∨ N = 2 ∨ N = 4 ∨ N = 8 := by simpa using hN
  unfold IntDiv16
  by_cases h4 : N ≤ 4
  · rw [if_pos h4]
    refine Runs.congr (Runs.bind (xpromote ha htl hwl (by omega) (by rw [hs]; exact id) (by omega)) fun pa hpa =>
      Runs.bind (xpromote hb htl hwl (by omega) (by rw [hs]; exact id) (by omega)) fun pb hpb =>
      Runs.bind (ydiv32 hw h4 hpa hpb) fun q hq => ydemote hwl htl (by omega) (by omega) hq) fun i hi => ?_
    rfl
  · rw [if_neg h4]
    have h8 : N = 8 := by omega
    subst h8
    refine Runs.congr (Runs.bind (yplower htl hwl hbits hs (H := 4) (by omega) ha) fun al hal =>
      Runs.bind (yplower htl hwl hbits hs (H := 4) (by omega) hb) fun bl hbl =>
      Runs.bind (ydiv32 hw (by omega) hal hbl) fun lo hlo =>
      Runs.bind (ypupper htl hwl hbits hs (H := 4) (by omega) ha) fun ah hah =>
      Runs.bind (ypupper htl hwl hbits hs (H := 4) (by omega) hb) fun bh hbh =>
      Runs.bind (ydiv32 hw (by omega) hah hbh) fun hi' hhi =>
      ydemote2 hwl htl hbits (NW := 4) (by omega) hlo hhi) fun i hi => ?_
    beta_reduce
    split_ifs with hi4
    · rfl
    · rw [show 4 + (i - 4) = i by omega]; rfl

theorem w8facts {t : Ty} (ht : t = i8 ∨ t = u8) : (wide t = i16 ∨ wide t = u16) ∧ wide t ∈ laneTys ∧ t ∈ laneTys ∧
    (wide t).bits = 2 * t.bits ∧ t.sgn = (wide t).sgn ∧ cap t = 16 ∧ cap (wide t) = 8 ∧
    (∀ x, t.Has x → (wide t).Has x) ∧ t.bits = 8 := by
  rcases ht with rfl | rfl
  · refine ⟨.inl rfl, by decide, by decide, by decide, by decide, by decide, by decide, fun x h => ?_, rfl⟩
    have h' : -128 ≤ x ∧ x ≤ 127 := h
    show -32768 ≤ x ∧ x ≤ 32767
    omega
  · refine ⟨.inr rfl, by decide, by decide, by decide, by decide, by decide, by decide, fun x h => ?_, rfl⟩
    have h' : 0 ≤ x ∧ x ≤ 255 := h
    show 0 ≤ x ∧ x ≤ 65535
    omega

theorem ydiv8 {t : Ty} (ht : t = i8 ∨ t = u8) {N : Nat} (hN : N ∈ [1, 2, 4, 8, 16]) {a b : List Int} {G H : Nat → Int}
    (ha : Is t N a G) (hb : Is t N b H) :
    ∃ K : Int → Int → Int, (∀ x y, t.Has x → t.Has y → QuotOk t x y (K x y)) ∧
      Runs t N (IntDiv8 t N a b) (fun i => K (G i) (H i)) := by
  obtain ⟨hw, hwl, htl, hbits, hs, hc, hcw, hh, h8⟩ := w8facts ht
  obtain ⟨hw2, hwl2, _, hbits2, hs2, _, hcw2, hn2, hz2⟩ := w16facts hw
  have hN' : N = 1 ∨ N = 2 ∨ N = 4 ∨ N = 8 ∨ N = 16 := by simpa using hN
  unfold IntDiv8
  by_cases h4 : N ≤ 4
  · rw [if_pos h4]
    refine ⟨fun x y => clamp t (qlane f32 (wide (wide t)) x y), fun x y hx hy h0 hr => ?_, ?_⟩
    · beta_reduce
      rw [q16 hw2 (hn2 x (hh x hx)) (hn2 y (hh y hy)) h0
        (fun h => by rw [← hs2] at h; exact ⟨hz2 h x (hh x hx), hz2 h y (hh y hy)⟩), clamp_id hr]
    · exact Runs.bind (xpromote ha htl hwl2 (by omega) (by rw [hs, hs2]; exact id) (by omega)) fun pa hpa =>
        Runs.bind (xpromote hb htl hwl2 (by omega) (by rw [hs, hs2]; exact id) (by omega)) fun pb hpb =>
        Runs.bind (ydiv32 hw2 h4 hpa hpb) fun q hq => ydemote hwl2 htl (by omega) (by omega) hq
  rw [if_neg h4]
  refine ⟨fun x y => clamp t (q16lane (wide t) x y), fun x y hx hy h0 hr => ?_, ?_⟩
  · beta_reduce
    rw [q16lane_ok hw (hh x hx) (hh y hy) h0 (hh _ hr), clamp_id hr]
  by_cases h8' : N ≤ 8
  · rw [if_pos h8']
    exact Runs.bind (xpromote ha htl hwl (by omega) (by rw [hs]; exact id) (by omega)) fun pa hpa =>
      Runs.bind (xpromote hb htl hwl (by omega) (by rw [hs]; exact id) (by omega)) fun pb hpb =>
      Runs.bind (ydiv16 hw (by simp; omega) hpa hpb) fun q hq => ydemote hwl htl (by omega) (by omega) hq
  · rw [if_neg h8']
    have h16 : N = 16 := by omega
    subst h16
    refine Runs.congr (Runs.bind (yplower htl hwl hbits hs (H := 8) (by omega) ha) fun al hal =>
      Runs.bind (yplower htl hwl hbits hs (H := 8) (by omega) hb) fun bl hbl =>
      Runs.bind (ydiv16 hw (by decide) hal hbl) fun lo hlo =>
      Runs.bind (ypupper htl hwl hbits hs (H := 8) (by omega) ha) fun ah hah =>
      Runs.bind (ypupper htl hwl hbits hs (H := 8) (by omega) hb) fun bh hbh =>
      Runs.bind (ydiv16 hw (by decide) hah hbh) fun hi' hhi =>
      ydemote2 hwl htl hbits (NW := 8) (by omega) hlo hhi) fun i hi => ?_
    beta_reduce
    split_ifs with hi8
    · rfl
    · rw [show 8 + (i - 8) = i by omega]

theorem q32lane_ok {t : Ty} (ht : t = i32 ∨ t = u32) {a b : Int} (ha : t.Has a) (hb : t.Has b) : QuotOk t a b (qlane f64 t a b) := by
  intro h0 hr
  have hm : t ∈ convTys := by rcases ht with rfl | rfl <;> decide
  have hp : f64.p = 52 := by decide
  have h32 : ∀ x, t.Has x → x.natAbs ≤ 2 ^ 52 := by
    intro x hx
    rcases ht with rfl | rfl
    · have h' : -2147483648 ≤ x ∧ x ≤ 2147483647 := hx
      omega
    · have h' : 0 ≤ x ∧ x ≤ 4294967295 := hx
      omega
  exact qlane_eq (.inr rfl) hm (by rw [hp]; exact h32 a ha) (by rw [hp]; exact h32 b hb) h0 hr

/-- The four-lane form of 32-bit division, in a format `F` (kept abstract). -/
theorem yquot2 {F : Fmt} (hF : F = f32 ∨ F = f64) {t : Ty} (hl : t ∈ laneTys) (hm : t ∈ convTys) {K : Nat} (hK : K ≤ cap F.ut)
    (hN : 2 * K ≤ cap t) {a b : List Int} {G H : Nat → Int} (ha : Is t (2 * K) a G) (hb : Is t (2 * K) b H) :
    Runs t (2 * K) (do
      let div1 ← FDiv F K (← ConvertI2F F K (← UpperHalf 0 (cap t) K a)) (← ConvertI2F F K (← UpperHalf 0 (cap t) K b))
      let div0 ← FDiv F K (← ConvertI2F F K (← LowerHalf 0 (cap t) K a)) (← ConvertI2F F K (← LowerHalf 0 (cap t) K b))
      Combine 0 (cap t) K (← ConvertInRangeF2I F t K div1) (← ConvertInRangeF2I F t K div0))
      (fun i => qlane F t (G i) (H i)) := by
  refine Runs.congr (Runs.bind (xupper ha hl (by omega) (H := K) (by omega)) fun au hau =>
    Runs.bind (yi2f hF hau (by omega) (by omega)) fun fau hfau =>
    Runs.bind (xupper hb hl (by omega) (H := K) (by omega)) fun bu hbu =>
    Runs.bind (yi2f hF hbu (by omega) (by omega)) fun fbu hfbu =>
    Runs.bind (ydiv hF hfau hfbu (by omega)) fun d1 hd1 =>
    Runs.bind (xlower ha hl (by omega) (H := K) (by omega)) fun al hal =>
    Runs.bind (yi2f hF hal (by omega) (by omega)) fun fal hfal =>
    Runs.bind (xlower hb hl (by omega) (H := K) (by omega)) fun bl hbl =>
    Runs.bind (yi2f hF hbl (by omega) (by omega)) fun fbl hfbl =>
    Runs.bind (ydiv hF hfal hfbl (by omega)) fun d0 hd0 =>
    Runs.bind (yf2i hF hm hd1 (by omega) (by omega)) fun q1 hq1 =>
    Runs.bind (yf2i hF hm hd0 (by omega) (by omega)) fun q0 hq0 =>
    ycombine hl (H := K) (by omega) hq1 hq0) fun i hi => ?_
  beta_reduce
  simp only [Int.toNat_natCast]
  split_ifs with hi2
  · rfl
  · rw [show K + (i - K) = i by omega]; rfl

theorem ydiv32full {t : Ty} (ht : t = i32 ∨ t = u32) {N : Nat} (hN : N ∈ [1, 2, 4]) {a b : List Int} {G H : Nat → Int}
    (ha : Is t N a G) (hb : Is t N b H) : Runs t N (IntDiv32 t N a b) (fun i => qlane f64 t (G i) (H i)) := by
  have hc : cap t = 4 := by rcases ht with rfl | rfl <;> decide
  have hcf : cap f64.ut = 2 := by decide
  have hm : t ∈ convTys := by rcases ht with rfl | rfl <;> decide
  have hl : t ∈ laneTys := by rcases ht with rfl | rfl <;> decide
  have hN' : N = 1 ∨ N = 2 ∨ N = 4 := by simpa using hN
  unfold IntDiv32
  by_cases h2 : N ≤ 2
  · rw [if_pos h2]
    exact yquot (.inr rfl) hm (by omega) (by omega) (by omega) ha hb
  · rw [if_neg h2]
    have h4 : N = 2 * 2 := by omega
    subst h4
    exact yquot2 (.inr rfl) hl hm (K := 2) (by omega) (by omega) ha hb

end Emu
end Hwy
