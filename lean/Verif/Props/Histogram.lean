import Verif.Proof.Stats
import Verif.Spec.Estimator

/-!
# C50-C53: histogram, percentiles, resolution
-/

set_option linter.unusedSectionVars false

namespace Angonoka.Props
open Angonoka Outcome

variable {K : Type} [Field K] [LinearOrder K] [IsStrictOrderedRing K]

/-- C50. A histogram that has been used in any way with non-negative values describes exactly the
values added since it was created or last cleared, and the counts add up to their number. -/
theorem histogram_exact {w : Int} (hw : 1 ≤ w) {uses : List HistogramUse}
    (hu : ∀ v, .add v ∈ uses → 0 ≤ v) :
    ∃ h bins, (Histogram.new w >>= fun h => h.run uses) = ok h ∧ h.toList = ok bins ∧
      Describes w (HistogramUse.contents [] uses) bins ∧
      (bins.map Bin.count).sum = (HistogramUse.contents [] uses).length ∧
      h.size = bins.length := by
  obtain ⟨h, h1, h2⟩ := (Histogram.inv_empty w).run hw hu
  have hd := h2.describes hw
  refine ⟨h, Histogram.binsOf w h, ?_, h2.toList hw, hd, hd.total hw, ?_⟩
  · unfold Histogram.new
    rw [expects_true (by simpa using hw), ok_bind]
    exact h1
  · simp [Histogram.size, Histogram.binsOf]

/-- C50: the bins depend only on which values were added how often, not on their order nor on what was
added before the last clearing. -/
theorem histogram_order {w : Int} (hw : 1 ≤ w) {uses uses' : List HistogramUse}
    (hu : ∀ v, .add v ∈ uses → 0 ≤ v) (hu' : ∀ v, .add v ∈ uses' → 0 ≤ v)
    (hp : (HistogramUse.contents [] uses).Perm (HistogramUse.contents [] uses')) :
    (Histogram.new w >>= fun h => h.run uses >>= fun h => h.toList)
      = (Histogram.new w >>= fun h => h.run uses' >>= fun h => h.toList) := by
  obtain ⟨h, h1, h2⟩ := (Histogram.inv_empty w).run hw hu
  obtain ⟨h', h1', h2'⟩ := (Histogram.inv_empty w).run hw hu'
  unfold Histogram.new
  rw [expects_true (by simpa using hw), ok_bind]
  simp only [pure_eq, ok_bind, h1, h1', h2.toList hw, h2'.toList hw]
  congr 1
  exact (h2.describes hw).unique hw (h2'.describes hw) hp

/-- C50: `histogram[i]` is the `i`-th bin of the iteration. -/
theorem histogram_index {w : Int} (hw : 1 ≤ w) {uses : List HistogramUse}
    (hu : ∀ v, .add v ∈ uses → 0 ≤ v) {h : Histogram} {bins : List Bin}
    (hh : (Histogram.new w >>= fun h => h.run uses) = ok h) (hb : h.toList = ok bins) {i : Nat}
    (hi : i < bins.length) : h.binAt i = ok bins[i] := by
  obtain ⟨h', h1, h2⟩ := (Histogram.inv_empty w).run hw hu
  unfold Histogram.new at hh
  rw [expects_true (by simpa using hw), ok_bind] at hh
  simp only [pure_eq, ok_bind, h1, Outcome.ok.injEq] at hh
  subst hh
  rw [h2.toList hw] at hb
  cases hb
  have hi' : i < h'.bins.length := by simpa [Histogram.binsOf] using hi
  unfold Histogram.binAt
  rw [expects_true (by simpa using List.ne_nil_of_length_pos (by omega)), ok_bind,
    List.getElem?_eq_getElem hi']
  dsimp only
  rw [h2.toBin hw (List.getElem_mem hi')]
  simp [Histogram.binsOf]

example : ∃ h bins, (Histogram.new 60 >>= fun h => h.run [.add 7, .clear, .add 130, .add 0, .add 179])
      = ok h ∧ h.toList = ok bins ∧ bins = [⟨1, 0, 30, 60⟩, ⟨2, 120, 150, 180⟩] :=
  ⟨⟨60, [(0, 1), (2, 2)]⟩, [⟨1, 0, 30, 60⟩, ⟨2, 120, 150, 180⟩], by decide +kernel⟩

/-! ### Percentiles -/

theorem _root_.Angonoka.HistogramOf.inv {w : Int} {vs : List Int} {h : Histogram} (hh : HistogramOf w vs h) :
    1 ≤ w ∧ Histogram.Inv w vs h := by
  obtain ⟨hw, uses, hu, rfl, h1⟩ := hh
  obtain ⟨h', h2, h3⟩ := (Histogram.inv_empty w).run hw hu
  unfold Histogram.new at h1
  rw [expects_true (by simpa using hw), ok_bind] at h1
  simp only [pure_eq, ok_bind, h2, Outcome.ok.injEq] at h1
  subst h1
  exact ⟨hw, h3⟩

theorem _root_.Angonoka.HistogramOf.middle_nonneg {w : Int} {vs : List Int} {h : Histogram} (hh : HistogramOf w vs h) :
    ∀ b ∈ Histogram.binsOf w h, 0 ≤ b.middle := by
  obtain ⟨hw, hi⟩ := hh.inv
  have hd := hi.describes hw
  intro b hb
  have h1 := hd.positive b hb
  rw [hd.counts b hb] at h1
  obtain ⟨v, hv, hbv⟩ := List.countP_pos_iff.1 (by omega : 0 < vs.countP fun v => b.Contains v)
  simp only [decide_eq_true_eq] at hbv
  have h2 := (hd.width b hb)
  have h3 := hi.nonneg v hv
  have hlow : 0 ≤ b.low := by
    obtain ⟨h4, k, hk⟩ := h2
    have h5 := hbv.2
    have : 0 ≤ k := by
      by_contra hneg
      have : b.low ≤ -w := by
        rw [hk]
        nlinarith
      omega
    rw [hk]
    exact Int.mul_nonneg (by omega) this
  rw [hd.middle b hb]
  have : 0 ≤ w / 2 := by omega
  omega

theorem _root_.Angonoka.HistogramOf.ne_nil {w : Int} {vs : List Int} {h : Histogram} (hh : HistogramOf w vs h)
    (hvs : vs ≠ []) : Histogram.binsOf w h ≠ [] := by
  obtain ⟨hw, hi⟩ := hh.inv
  obtain ⟨v, hv⟩ := List.exists_mem_of_ne_nil _ hvs
  obtain ⟨b, hb, _⟩ := (hi.describes hw).covers v hv
  exact List.ne_nil_of_mem hb

/-- C51, for every rounding: the percentiles are ordered, and each is the middle of a bin. -/
theorem percentiles_ordered {E : FloatEnv K} {w : Int} {vs : List Int} {h : Histogram}
    (hh : HistogramOf w vs h) {s : HistogramStats} (hs : stats E h = ok s) :
    s.p25 ≤ s.p50 ∧ s.p50 ≤ s.p75 ∧ s.p75 ≤ s.p95 ∧ s.p95 ≤ s.p99 ∧
    ∃ bins, h.toList = ok bins ∧
      ∀ x ∈ [s.p25, s.p50, s.p75, s.p95, s.p99], ∃ b ∈ bins, x = b.middle := by
  obtain ⟨hw, hi⟩ := hh.inv
  have hd := hi.describes hw
  unfold stats at hs
  obtain ⟨_, hsize, hs⟩ := bind_eq_ok.1 hs
  have hlist := hi.toList hw
  rw [hlist, ok_bind] at hs
  have hne : Histogram.binsOf w h ≠ [] := by
    have : 0 < h.size := by simpa using hsize
    intro h0
    simp [Histogram.binsOf] at h0
    simp [Histogram.size, h0] at this
  generalize Histogram.binsOf w h = bins at *
  obtain ⟨total, _, hs⟩ := bind_eq_ok.1 hs
  obtain ⟨⟨v1, r1, c1⟩, e1, hs⟩ := bind_eq_ok.1 hs
  obtain ⟨⟨v2, r2, c2⟩, e2, hs⟩ := bind_eq_ok.1 hs
  obtain ⟨⟨v3, r3, c3⟩, e3, hs⟩ := bind_eq_ok.1 hs
  obtain ⟨⟨v4, r4, c4⟩, e4, hs⟩ := bind_eq_ok.1 hs
  obtain ⟨⟨v5, r5, c5⟩, e5, hs⟩ := bind_eq_ok.1 hs
  cases hs
  obtain ⟨j1, l1, _, rfl, rfl⟩ := accumulateUntil_index (i := 0) (Nat.zero_le _) hne e1
  obtain ⟨j2, l2, m2, rfl, rfl⟩ := accumulateUntil_index (by omega) hne e2
  obtain ⟨j3, l3, m3, rfl, rfl⟩ := accumulateUntil_index (by omega) hne e3
  obtain ⟨j4, l4, m4, rfl, rfl⟩ := accumulateUntil_index (by omega) hne e4
  obtain ⟨j5, l5, m5, rfl, rfl⟩ := accumulateUntil_index (by omega) hne e5
  have hle : ∀ {i j : Nat} (hi : i < bins.length) (hj : j < bins.length), i ≤ j →
      bins[i].middle ≤ bins[j].middle := by
    intro i j hi hj hij
    rcases Nat.eq_or_lt_of_le hij with rfl | hlt
    · exact le_rfl
    · have h1 := List.pairwise_iff_getElem.1 (hd.nodup hw) i j hi hj hlt
      rw [hd.middle _ (List.getElem_mem hi), hd.middle _ (List.getElem_mem hj)]
      omega
  refine ⟨hle _ _ (by omega), hle _ _ (by omega), hle _ _ (by omega), hle _ _ (by omega), bins,
    hlist, ?_⟩
  intro x hx
  simp only [List.mem_cons, List.not_mem_nil, or_false] at hx
  rcases hx with rfl | rfl | rfl | rfl | rfl <;> exact ⟨_, List.getElem_mem _, rfl⟩

/-- Where the five percentiles are: `e` are the right positions (`IsPercentile`), `i` the positions
that are returned. A scan starts after the position returned before. -/
theorem percentiles_located {E : FloatEnv K} {w : Int} {vs : List Int} {h : Histogram}
    (hh : HistogramOf w vs h) (hvs : vs ≠ []) (hE : CountsExact E vs.length) :
    ∃ bins, h.toList = ok bins ∧ Describes w vs bins ∧
      ∀ e1 e2 e3 e4 e5, IsPercentile bins (thresholdOf E vs.length (25 / 100)) e1 →
        IsPercentile bins (thresholdOf E vs.length (50 / 100)) e2 →
        IsPercentile bins (thresholdOf E vs.length (75 / 100)) e3 →
        IsPercentile bins (thresholdOf E vs.length (95 / 100)) e4 →
        IsPercentile bins (thresholdOf E vs.length (99 / 100)) e5 →
        ∃ b1 b2 b3 b4 b5 i2 i3 i4 i5,
          stats E h = ok ⟨b1.middle, b2.middle, b3.middle, b4.middle, b5.middle⟩ ∧
          bins[e1]? = some b1 ∧ bins[i2]? = some b2 ∧ bins[i3]? = some b3 ∧ bins[i4]? = some b4 ∧
          bins[i5]? = some b5 ∧
          i2 = min (bins.length - 1) (max e2 (e1 + 1)) ∧ i3 = min (bins.length - 1) (max e3 (i2 + 1)) ∧
          i4 = min (bins.length - 1) (max e4 (i3 + 1)) ∧ i5 = min (bins.length - 1) (max e5 (i4 + 1)) := by
  obtain ⟨hw, hi⟩ := hh.inv
  have hd := hi.describes hw
  have hne := hh.ne_nil hvs
  have hmid := hh.middle_nonneg
  have hsize : h.size = (Histogram.binsOf w h).length := by simp [Histogram.size, Histogram.binsOf]
  refine ⟨Histogram.binsOf w h, hi.toList hw, hd, ?_⟩
  have hlist := hi.toList hw
  generalize Histogram.binsOf w h = bins at *
  intro e1 e2 e3 e4 e5 p1 p2 p3 p4 p5
  have htot := hd.total hw
  have hEc : CountsExact E (bins.map Bin.count).sum := by rw [htot]; exact hE
  have ht : ∀ q : K, 0 ≤ q → 0 ≤ thresholdOf E vs.length q := by
    intro q hq
    exact E.rnd_nonneg (mul_nonneg (Nat.cast_nonneg _) (E.rnd_nonneg hq))
  have q1 : (0 : K) ≤ 25 / 100 := by norm_num
  have q2 : (0 : K) ≤ 50 / 100 := by norm_num
  have q3 : (0 : K) ≤ 75 / 100 := by norm_num
  have q4 : (0 : K) ≤ 95 / 100 := by norm_num
  have q5 : (0 : K) ≤ 99 / 100 := by norm_num
  obtain ⟨l1, s1⟩ := accumulateUntil_exact hd.positive hmid hEc (ht _ q1) p1 (Nat.zero_le _)
  have hz : hitIndex bins.length e1 0 = e1 := by
    have := p1.1
    unfold hitIndex
    omega
  obtain ⟨l2, s2⟩ := accumulateUntil_exact hd.positive hmid hEc (ht _ q2) p2
    (i := hitIndex bins.length e1 0 + 1) (by omega)
  obtain ⟨l3, s3⟩ := accumulateUntil_exact hd.positive hmid hEc (ht _ q3) p3
    (i := hitIndex bins.length e2 (hitIndex bins.length e1 0 + 1) + 1) (by omega)
  obtain ⟨l4, s4⟩ := accumulateUntil_exact hd.positive hmid hEc (ht _ q4) p4
    (i := hitIndex bins.length e3 (hitIndex bins.length e2 (hitIndex bins.length e1 0 + 1) + 1) + 1)
    (by omega)
  obtain ⟨l5, s5⟩ := accumulateUntil_exact hd.positive hmid hEc (ht _ q5) p5
    (i := hitIndex bins.length e4 (hitIndex bins.length e3
      (hitIndex bins.length e2 (hitIndex bins.length e1 0 + 1) + 1) + 1) + 1) (by omega)
  refine ⟨bins[hitIndex bins.length e1 0], _, _, _, _, _, _, _, _, ?_, ?_,
    List.getElem?_eq_getElem l2, List.getElem?_eq_getElem l3, List.getElem?_eq_getElem l4,
    List.getElem?_eq_getElem l5, ?_, rfl, rfl, rfl⟩
  · unfold stats
    rw [expects_true (by simpa [hsize] using List.length_pos_iff.2 hne), ok_bind, hlist, ok_bind,
      accumulate_exact hd.positive hEc, ok_bind, htot, Int.cast_natCast]
    unfold thresholdOf at s1 s2 s3 s4 s5
    rw [cumulative_zero, Int.cast_zero, List.drop_zero] at s1
    rw [s1, ok_bind]
    dsimp only
    rw [s2, ok_bind]
    dsimp only
    rw [s3, ok_bind]
    dsimp only
    rw [s4, ok_bind]
    dsimp only
    rw [s5, ok_bind]
    rfl
  · rw [← List.getElem?_eq_getElem l1, hz]
  · rw [hz]
    rfl

theorem threshold_le {E : FloatEnv K} {n : Nat} (hE : CountsExact E n) {q : K} (hq : q ≤ 1) :
    thresholdOf E n q ≤ n := by
  have h1 : (n : K) * E.rnd q ≤ n := by
    have := mul_le_mul_of_nonneg_left (E.rnd_le_one hq) (Nat.cast_nonneg (α := K) n)
    rwa [mul_one] at this
  have h2 := E.rnd_mono h1
  have h3 := hE n (by omega) le_rfl
  rw [Int.cast_natCast] at h3
  rwa [h3] at h2

/-- C51. The percentiles are conservative: each is the middle of a bin such that the number of
runs that are in this bin or below it is at least the threshold for its fraction. -/
theorem percentiles_conservative {E : FloatEnv K} {w : Int} {vs : List Int} {h : Histogram}
    (hh : HistogramOf w vs h) (hvs : vs ≠ []) (hE : CountsExact E vs.length) :
    ∃ s bins, stats E h = ok s ∧ h.toList = ok bins ∧
      ∀ q x, (q, x) ∈ [(25 / 100, s.p25), (50 / 100, s.p50), (75 / 100, s.p75), (95 / 100, s.p95),
          ((99 / 100 : K), s.p99)] →
        ∃ b ∈ bins, x = b.middle ∧
          thresholdOf E vs.length q ≤ ((vs.countP fun v => v < b.high : Nat) : K) := by
  obtain ⟨bins, hl, hd, hloc⟩ := percentiles_located hh hvs hE
  have hw := hh.1
  have hne : bins ≠ [] := by
    have := hh.ne_nil hvs
    rw [hh.inv.2.toList hw] at hl
    cases hl
    exact this
  have htot := hd.total hw
  have hex : ∀ q : K, q ≤ 1 → ∃ e, IsPercentile bins (thresholdOf E vs.length q) e := by
    intro q hq
    apply exists_percentile hne
    rw [htot, Int.cast_natCast]
    exact threshold_le hE hq
  obtain ⟨e1, p1⟩ := hex (25 / 100) (by norm_num)
  obtain ⟨e2, p2⟩ := hex (50 / 100) (by norm_num)
  obtain ⟨e3, p3⟩ := hex (75 / 100) (by norm_num)
  obtain ⟨e4, p4⟩ := hex (95 / 100) (by norm_num)
  obtain ⟨e5, p5⟩ := hex (99 / 100) (by norm_num)
  obtain ⟨b1, b2, b3, b4, b5, i2, i3, i4, i5, hs, g1, g2, g3, g4, g5, r2, r3, r4, r5⟩ :=
    hloc e1 e2 e3 e4 e5 p1 p2 p3 p4 p5
  refine ⟨_, bins, hs, hl, ?_⟩
  have key : ∀ {q : K} {e i : Nat} {b : Bin}, IsPercentile bins (thresholdOf E vs.length q) e →
      e ≤ i → bins[i]? = some b →
      b ∈ bins ∧ thresholdOf E vs.length q ≤ ((vs.countP fun v => v < b.high : Nat) : K) := by
    intro q e i b hp hei hb
    obtain ⟨hi, rfl⟩ := List.getElem?_eq_some_iff.1 hb
    refine ⟨List.getElem_mem hi, ?_⟩
    have h1 := cumulative_mono hd.positive (i := e + 1) (j := i + 1) (by omega)
    rw [hd.cumulative_eq hw hi] at h1
    have h2 : (cumulative bins (e + 1) : K) ≤ (((vs.countP fun v => v < bins[i].high : Nat) : Int) : K) := by
      exact_mod_cast h1
    rw [Int.cast_natCast] at h2
    exact hp.2.1.trans h2
  have := p1.1
  have := p2.1
  have := p3.1
  have := p4.1
  have := p5.1
  intro q x hx
  simp only [List.mem_cons, Prod.mk.injEq, List.not_mem_nil, or_false] at hx
  rcases hx with ⟨rfl, rfl⟩ | ⟨rfl, rfl⟩ | ⟨rfl, rfl⟩ | ⟨rfl, rfl⟩ | ⟨rfl, rfl⟩
  · exact ⟨b1, (key p1 le_rfl g1).1, rfl, (key p1 le_rfl g1).2⟩
  · exact ⟨b2, (key p2 (by omega) g2).1, rfl, (key p2 (by omega) g2).2⟩
  · exact ⟨b3, (key p3 (by omega) g3).1, rfl, (key p3 (by omega) g3).2⟩
  · exact ⟨b4, (key p4 (by omega) g4).1, rfl, (key p4 (by omega) g4).2⟩
  · exact ⟨b5, (key p5 (by omega) g5).1, rfl, (key p5 (by omega) g5).2⟩

/-- C51 in exact arithmetic: at least 25, 50, 75, 95 and 99 percent of the runs lie in the bin of
the percentile or below it. -/
theorem percentiles_fraction {E : FloatEnv K} (hE : E.IsExact) {w : Int} {vs : List Int} {h : Histogram}
    (hh : HistogramOf w vs h) (hvs : vs ≠ []) :
    ∃ s bins, stats E h = ok s ∧ h.toList = ok bins ∧
      ∀ q x, (q, x) ∈ [(25 / 100, s.p25), (50 / 100, s.p50), (75 / 100, s.p75), (95 / 100, s.p95),
          ((99 / 100 : K), s.p99)] →
        ∃ b ∈ bins, x = b.middle ∧
          q * vs.length ≤ ((vs.countP fun v => v < b.high : Nat) : K) := by
  obtain ⟨s, bins, h1, h2, h3⟩ := percentiles_conservative hh hvs (E := E) fun n _ _ => hE _
  refine ⟨s, bins, h1, h2, fun q x hx => ?_⟩
  obtain ⟨b, hb, hx, hq⟩ := h3 q x hx
  refine ⟨b, hb, hx, ?_⟩
  simpa [thresholdOf, FloatEnv.mul, hE _, mul_comm] using hq

/-- C52, the part that holds: the 25th percentile is the first bin that reaches its threshold; and if the five
thresholds are reached in five different bins, all percentiles are. Missing: the case that
one bin is the right one for several percentiles; see `percentiles_wrong`. -/
theorem percentiles_exact_partial {E : FloatEnv K} {w : Int} {vs : List Int} {h : Histogram}
    (hh : HistogramOf w vs h) (hvs : vs ≠ []) (hE : CountsExact E vs.length) :
    ∃ s bins, stats E h = ok s ∧ h.toList = ok bins ∧
      ∀ e1 e2 e3 e4 e5, IsPercentile bins (thresholdOf E vs.length (25 / 100)) e1 →
        IsPercentile bins (thresholdOf E vs.length (50 / 100)) e2 →
        IsPercentile bins (thresholdOf E vs.length (75 / 100)) e3 →
        IsPercentile bins (thresholdOf E vs.length (95 / 100)) e4 →
        IsPercentile bins (thresholdOf E vs.length (99 / 100)) e5 →
        some s.p25 = bins[e1]?.map Bin.middle ∧
        (e1 ≠ e2 → e2 ≠ e3 → e3 ≠ e4 → e4 ≠ e5 →
          some s.p50 = bins[e2]?.map Bin.middle ∧ some s.p75 = bins[e3]?.map Bin.middle ∧
          some s.p95 = bins[e4]?.map Bin.middle ∧ some s.p99 = bins[e5]?.map Bin.middle) := by
  obtain ⟨s, bins, hs, hl, _⟩ := percentiles_conservative hh hvs hE
  refine ⟨s, bins, hs, hl, ?_⟩
  obtain ⟨bins', hl', hd, hloc⟩ := percentiles_located hh hvs hE
  rw [hl] at hl'
  cases hl'
  intro e1 e2 e3 e4 e5 p1 p2 p3 p4 p5
  obtain ⟨b1, b2, b3, b4, b5, i2, i3, i4, i5, hs', g1, g2, g3, g4, g5, r2, r3, r4, r5⟩ :=
    hloc e1 e2 e3 e4 e5 p1 p2 p3 p4 p5
  rw [hs] at hs'
  cases hs'
  refine ⟨by simp [g1], fun n1 n2 n3 n4 => ?_⟩
  have hmono : ∀ {q q' : K} {e e' : Nat}, q ≤ q' → IsPercentile bins (thresholdOf E vs.length q) e →
      IsPercentile bins (thresholdOf E vs.length q') e' → e ≤ e' := by
    intro q q' e e' hq hp hp'
    by_contra hlt
    have h1 := hp.2.2 e' (by omega)
    have h2 : thresholdOf E vs.length q ≤ thresholdOf E vs.length q' :=
      E.rnd_mono (mul_le_mul_of_nonneg_left (E.rnd_mono hq) (Nat.cast_nonneg _))
    exact absurd (lt_of_lt_of_le h1 (h2.trans hp'.2.1)) (lt_irrefl _)
  have m1 := hmono (by norm_num) p1 p2
  have m2 := hmono (by norm_num) p2 p3
  have m3 := hmono (by norm_num) p3 p4
  have m4 := hmono (by norm_num) p4 p5
  have := p1.1
  have := p2.1
  have := p3.1
  have := p4.1
  have := p5.1
  have k2 : i2 = e2 := by omega
  have k3 : i3 = e3 := by omega
  have k4 : i4 = e4 := by omega
  have k5 : i5 = e5 := by omega
  subst k2 k3 k4 k5
  exact ⟨by simp [g2], by simp [g3], by simp [g4], by simp [g5]⟩

/-- A histogram of 99 runs in the first minute and one in the second. -/
def skewed : Histogram := ⟨60, [(0, 99), (1, 1)]⟩

theorem skewed_of : HistogramOf 60 (List.replicate 99 (0 : Int) ++ [60]) skewed := by
  refine ⟨by decide, (List.replicate 99 (0 : Int) ++ [60]).map HistogramUse.add, ?_, ?_, ?_⟩
  · intro v hv
    obtain ⟨x, hx, hxv⟩ := List.mem_map.1 hv
    cases hxv
    rcases List.mem_append.1 hx with hx | hx
    · exact (List.mem_replicate.1 hx).2.ge
    · simp only [List.mem_singleton] at hx
      omega
  · decide +kernel
  · decide +kernel

/-- C52 is false: with 99 of 100 runs in the first bin, the code reports the second one as the median. The
first bin is the right one for 25 to 99 percent. -/
theorem percentiles_wrong :
    stats FloatEnv.rat skewed = ok ⟨30, 90, 90, 90, 90⟩ ∧
    ∃ bins, skewed.toList = ok bins ∧ bins[0]? = some ⟨99, 0, 30, 60⟩ ∧
      ∀ q ∈ [(25 / 100 : ℚ), 50 / 100, 75 / 100, 95 / 100, 99 / 100],
        IsPercentile bins (thresholdOf FloatEnv.rat 100 q) 0 := by
  refine ⟨by decide +kernel, [⟨99, 0, 30, 60⟩, ⟨1, 60, 90, 120⟩], by decide +kernel, rfl, ?_⟩
  have h : ∀ q : ℚ, thresholdOf FloatEnv.rat 100 q = 100 * q := fun q => by
    simp [thresholdOf, FloatEnv.mul, FloatEnv.rat, FloatEnv.exact]
  intro q hq
  refine ⟨by decide, ?_, by omega⟩
  rw [h]
  simp only [List.mem_cons, List.not_mem_nil, or_false] at hq
  rcases hq with rfl | rfl | rfl | rfl | rfl <;> norm_num [cumulative]

/-- The conditions of `percentiles_exact_partial` are met by a histogram with enough spread. -/
example : ∃ h, HistogramOf 60 ((List.range 100).map fun i : Nat => (i : Int) * 60) h ∧
    stats FloatEnv.rat h = ok ⟨1470, 2970, 4470, 5670, 5910⟩ := by
  refine ⟨⟨60, (List.range 100).map fun i : Nat => ((i : Int), 1)⟩, ⟨by decide,
    (List.range 100).map fun i : Nat => .add ((i : Int) * 60), ?_, ?_, ?_⟩, ?_⟩
  · intro v hv
    obtain ⟨i, _, hi⟩ := List.mem_map.1 hv
    cases hi
    omega
  · decide +kernel
  · decide +kernel
  · decide +kernel

/-! ### Resolution -/

/-- C53. Without an explicit bin size, bins are one minute below five hours, one hour below thirteen days, one
day otherwise; an explicit one is used as it is. -/
theorem resolution {makespan : Int} (hm : 1 ≤ makespan) :
    parseGranularity none makespan =
      ok (if makespan < 5 * 60 * 60 then 60 else if makespan < 13 * 24 * 60 * 60 then 60 * 60
        else 24 * 60 * 60) ∧
    ∀ b, parseGranularity (some b) makespan = ok b := by
  constructor
  · unfold parseGranularity granularity
    rw [expects_true (by simpa using hm), ok_bind]
    dsimp only
    rw [expects_true (by simpa using hm), ok_bind]
    split <;> split <;> (simp_all; try omega)
  · intro b
    unfold parseGranularity
    rw [expects_true (by simpa using hm), ok_bind]
    rfl

/-- C53: a plan shorter than a second breaks the contract, even with an explicit bin size. -/
theorem resolution_short {makespan : Int} (hm : makespan < 1) (b : Option Int) :
    ∃ site, parseGranularity b makespan = ub site := by
  refine ⟨"parse_granularity: makespan >= 1s", ?_⟩
  unfold parseGranularity expects
  rw [if_neg (by simpa using hm)]
  rfl

end Angonoka.Props
