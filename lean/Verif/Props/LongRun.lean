import Verif.Props.Repeated

/-!
# C101, C102: what many runs show
-/

set_option linter.unusedSectionVars false

namespace Angonoka.Props
open Outcome Stun MeasureTheory ProbabilityTheory Restart Filter Topology

section
variable {r : Nat → Int} {π : Measure Int}

theorem frequency_lt (h : FrequenciesConverge r π)
    (x : Int) : Tendsto (fun n : Nat => ((((List.range n).map r).countP fun v => decide (v < x) : Nat) : ℝ) / n) atTop (𝓝 (π (Set.Iio x)).toReal) := by
  have h1 := h (x - 1)
  have e1 : Set.Iic (x - 1) = Set.Iio x := by
    ext v
    simp only [Set.mem_Iic, Set.mem_Iio]
    omega
  rw [e1] at h1
  refine h1.congr fun n => ?_
  rw [List.countP_map]
  congr 2
  apply List.countP_congr
  intro j _
  simp only [Function.comp, decide_eq_true_eq]
  omega

theorem eventually_below (h : FrequenciesConverge r π)
    {x : Int} {q : ℝ} (hq : (π (Set.Iio x)).toReal < q) :
    ∀ᶠ n : Nat in atTop, ((((List.range n).map r).countP fun v => decide (v < x) : Nat) : ℝ) < q * n := by
  filter_upwards [(frequency_lt h x).eventually_lt_const hq, eventually_gt_atTop 0] with n h1 h2
  exact (div_lt_iff₀ (by exact_mod_cast h2)).1 h1

theorem eventually_above (h : FrequenciesConverge r π)
    {x : Int} {q : ℝ} (hq : q < (π (Set.Iio x)).toReal) :
    ∀ᶠ n : Nat in atTop, q * n < ((((List.range n).map r).countP fun v => decide (v < x) : Nat) : ℝ) := by
  filter_upwards [(frequency_lt h x).eventually_const_lt hq, eventually_gt_atTop 0] with n h1 h2
  exact (lt_div_iff₀ (by exact_mod_cast h2)).1 h1

/-- Where a percentile is. -/
theorem percentile_at {w : Int} (hw : 1 ≤ w) {vs : List Int} {bins : List Bin} (hd : Describes w vs bins) {lo : Int} (hlo : w ∣ lo) {t : ℝ}
    (h1 : ((vs.countP fun v => decide (v < lo) : Nat) : ℝ) < t) (h2 : t < ((vs.countP fun v => decide (v < lo + w) : Nat) : ℝ)) :
    ∃ e, ∃ he : e < bins.length, IsPercentile bins t e ∧ bins[e].low = lo ∧ bins[e].middle = lo + w / 2 := by
  obtain ⟨v, hv, hv1, hv2⟩ : ∃ v ∈ vs, lo ≤ v ∧ v < lo + w := by
    by_contra hno
    push Not at hno
    have : (vs.countP fun v => decide (v < lo + w)) ≤ vs.countP fun v => decide (v < lo) := by
      apply List.countP_mono_left
      intro v hv h
      rw [decide_eq_true_eq] at h ⊢
      by_contra hl
      have := hno v hv (by omega)
      omega
    have : ((vs.countP fun v => decide (v < lo + w) : Nat) : ℝ) ≤ ((vs.countP fun v => decide (v < lo) : Nat) : ℝ) := by exact_mod_cast this
    linarith
  obtain ⟨b, hb, hc⟩ := hd.covers v hv
  obtain ⟨hw1, hw2⟩ := hd.width b hb
  have hlow : b.low = lo := by
    obtain ⟨c, hc1⟩ := hlo
    obtain ⟨d, hd1⟩ := hw2
    have h3 := hc.1
    have h4 := hc.2
    rw [hw1] at h4
    have h5 : c = d := by
      rcases lt_trichotomy c d with h | h | h
      · have : w * (c + 1) ≤ w * d := mul_le_mul_of_nonneg_left (by omega) (by omega)
        rw [mul_add, mul_one] at this
        omega
      · exact h
      · have : w * (d + 1) ≤ w * c := mul_le_mul_of_nonneg_left (by omega) (by omega)
        rw [mul_add, mul_one] at this
        omega
    rw [hd1, hc1, h5]
  obtain ⟨e, he, rfl⟩ := List.getElem_of_mem hb
  refine ⟨e, he, ⟨he, ?_, ?_⟩, hlow, by rw [hd.middle _ hb, hlow]⟩
  · rw [hd.cumulative_eq hw he, Int.cast_natCast, hw1, hlow]
    exact h2.le
  · intro k hk
    have hk' : k < bins.length := by omega
    rw [hd.cumulative_eq hw hk', Int.cast_natCast]
    refine lt_of_le_of_lt ?_ h1
    have hasc := List.pairwise_iff_getElem.1 hd.ascending k e hk' he hk
    rw [hlow] at hasc
    have : (vs.countP fun v => decide (v < bins[k].high)) ≤ vs.countP fun v => decide (v < lo) := by
      apply List.countP_mono_left
      intro v _ h
      rw [decide_eq_true_eq] at h ⊢
      omega
    exact_mod_cast this

variable {E : FloatEnv ℝ}

theorem threshold_exact (hE : E.IsExact) (n : Nat) (q : ℝ) : thresholdOf E n q = q * n := by
  simp [thresholdOf, FloatEnv.mul, hE _, mul_comm]

theorem length_results (n : Nat) : ((List.range n).map r).length = n := by simp

/-- Percentiles are not too low in the long run. -/
theorem percentiles_eventually_above (hE : E.IsExact)
    (h : FrequenciesConverge r π)
    {w lo : Int} {q : ℝ} (hlo : w ∣ lo) (hq : (π (Set.Iio lo)).toReal < q) :
    ∀ᶠ n : Nat in atTop, ∀ hist, HistogramOf w ((List.range n).map r) hist → ∃ st, stats E hist = ok st ∧
      ∀ x, (q, x) ∈ [(25 / 100, st.p25), (50 / 100, st.p50), (75 / 100, st.p75), (95 / 100, st.p95), ((99 / 100 : ℝ), st.p99)] → lo + w / 2 ≤ x := by
  filter_upwards [eventually_below h hq, eventually_gt_atTop 0] with n h1 h2 hist hh
  have hw := hh.1
  obtain ⟨st, bins, hs, hl, hall⟩ := percentiles_fraction hE hh (by
    intro h0
    have := congrArg List.length h0
    simp at this
    omega)
  obtain ⟨bins', hl', hd, -⟩ := percentiles_located (E := E) hh (by
    intro h0
    have := congrArg List.length h0
    simp at this
    omega) fun n _ _ => hE _
  rw [hl] at hl'
  cases hl'
  refine ⟨st, hs, fun x hx => ?_⟩
  obtain ⟨b, hb, rfl, hcount⟩ := hall q x hx
  rw [length_results] at hcount
  rw [hd.middle b hb]
  obtain ⟨hw1, hw2⟩ := hd.width b hb
  have hlt : lo < b.high := by
    by_contra hge
    have : (((List.range n).map r).countP fun v => decide (v < b.high)) ≤ ((List.range n).map r).countP fun v => decide (v < lo) := by
      apply List.countP_mono_left
      intro v _ h
      rw [decide_eq_true_eq] at h ⊢
      omega
    have : ((((List.range n).map r).countP fun v => decide (v < b.high) : Nat) : ℝ) ≤ (((List.range n).map r).countP fun v => decide (v < lo) : Nat) := by
      exact_mod_cast this
    linarith
  obtain ⟨c, rfl⟩ := hlo
  obtain ⟨d, hd1⟩ := hw2
  rw [hw1, hd1] at hlt
  have : c ≤ d := by
    by_contra hcd
    have : w * (d + 1) ≤ w * c := mul_le_mul_of_nonneg_left (by omega) (by omega)
    rw [mul_add, mul_one] at this
    omega
  have := mul_le_mul_of_nonneg_left this (by omega : 0 ≤ w)
  omega

theorem percentile_eventually
    (h : FrequenciesConverge r π)
    {w lo : Int} {q : ℝ} (hb : QuantileBin π w q lo) :
    ∀ᶠ n : Nat in atTop, ∀ bins, 1 ≤ w → Describes w ((List.range n).map r) bins →
      ∃ e, ∃ he : e < bins.length, IsPercentile bins (q * n) e ∧ bins[e].low = lo ∧ bins[e].middle = lo + w / 2 := by
  filter_upwards [eventually_below h hb.2.1, eventually_above h hb.2.2] with n h1 h2 bins hw hd
  exact percentile_at hw hd hb.1 h1 h2

/-- The first percentile converges. -/
theorem p25_eventually (hE : E.IsExact)
    (h : FrequenciesConverge r π)
    {w : Int} {l1 : Int} (h1 : QuantileBin π w (25 / 100) l1) :
    ∀ᶠ n : Nat in atTop, ∀ hist, HistogramOf w ((List.range n).map r) hist → ∃ st, stats E hist = ok st ∧ st.p25 = l1 + w / 2 := by
  filter_upwards [percentile_eventually h h1, eventually_gt_atTop 0] with n g1 h0 hist hh
  have hw := hh.1
  have hne0 : (List.range n).map r ≠ [] := by
    intro h0
    have := congrArg List.length h0
    simp at this
    omega
  obtain ⟨bins, hl, hd, -⟩ := percentiles_located (E := E) hh hne0 fun n _ _ => hE _
  obtain ⟨st, bins', hs, hl', hall⟩ := percentiles_exact_partial (E := E) hh hne0 fun n _ _ => hE _
  rw [hl] at hl'
  cases hl'
  have hex : ∀ q : ℝ, q ≤ 1 → ∃ e, IsPercentile bins (thresholdOf E ((List.range n).map r).length q) e := by
    intro q hq
    apply exists_percentile
    · have := hh.ne_nil hne0
      rw [hh.inv.2.toList hw] at hl
      cases hl
      exact this
    · rw [hd.total hw, Int.cast_natCast]
      exact threshold_le (fun n _ _ => hE _) hq
  obtain ⟨e1, k1, i1, j1, m1⟩ := g1 bins hw hd
  obtain ⟨e2, i2⟩ := hex (50 / 100) (by norm_num)
  obtain ⟨e3, i3⟩ := hex (75 / 100) (by norm_num)
  obtain ⟨e4, i4⟩ := hex (95 / 100) (by norm_num)
  obtain ⟨e5, i5⟩ := hex (99 / 100) (by norm_num)
  have a1 := (hall e1 e2 e3 e4 e5 (by rw [length_results, threshold_exact hE]; exact i1) i2 i3 i4 i5).1
  refine ⟨st, hs, ?_⟩
  simpa only [List.getElem?_eq_getElem k1, Option.map_some, Option.some.injEq, m1] using a1

/-- All converge if they are in different bins. -/
theorem percentiles_eventually (hE : E.IsExact)
    (h : FrequenciesConverge r π)
    {w : Int} {l1 l2 l3 l4 l5 : Int} (h1 : QuantileBin π w (25 / 100) l1) (h2 : QuantileBin π w (50 / 100) l2)
    (h3 : QuantileBin π w (75 / 100) l3) (h4 : QuantileBin π w (95 / 100) l4) (h5 : QuantileBin π w (99 / 100) l5)
    (hne : l1 ≠ l2 ∧ l2 ≠ l3 ∧ l3 ≠ l4 ∧ l4 ≠ l5) :
    ∀ᶠ n : Nat in atTop, ∀ hist, HistogramOf w ((List.range n).map r) hist →
      stats E hist = ok ⟨l1 + w / 2, l2 + w / 2, l3 + w / 2, l4 + w / 2, l5 + w / 2⟩ := by
  filter_upwards [percentile_eventually h h1, percentile_eventually h h2, percentile_eventually h h3, percentile_eventually h h4,
    percentile_eventually h h5, eventually_gt_atTop 0] with n g1 g2 g3 g4 g5 h0 hist hh
  have hw := hh.1
  have hne0 : (List.range n).map r ≠ [] := by
    intro h0
    have := congrArg List.length h0
    simp at this
    omega
  obtain ⟨bins, hl, hd, -⟩ := percentiles_located (E := E) hh hne0 fun n _ _ => hE _
  obtain ⟨st, bins', hs, hl', hall⟩ := percentiles_exact_partial (E := E) hh hne0 fun n _ _ => hE _
  rw [hl] at hl'
  cases hl'
  obtain ⟨e1, k1, i1, j1, m1⟩ := g1 bins hw hd
  obtain ⟨e2, k2, i2, j2, m2⟩ := g2 bins hw hd
  obtain ⟨e3, k3, i3, j3, m3⟩ := g3 bins hw hd
  obtain ⟨e4, k4, i4, j4, m4⟩ := g4 bins hw hd
  obtain ⟨e5, k5, i5, j5, m5⟩ := g5 bins hw hd
  have hall := hall e1 e2 e3 e4 e5
  simp only [length_results, threshold_exact hE] at hall
  obtain ⟨a1, a2⟩ := hall i1 i2 i3 i4 i5
  obtain ⟨a2, a3, a4, a5⟩ := a2 (by rintro rfl; exact hne.1 (j1.symm.trans j2)) (by rintro rfl; exact hne.2.1 (j2.symm.trans j3))
    (by rintro rfl; exact hne.2.2.1 (j3.symm.trans j4)) (by rintro rfl; exact hne.2.2.2 (j4.symm.trans j5))
  rw [hs]
  simp only [List.getElem?_eq_getElem, k1, k2, k3, k4, k5, Option.map_some, Option.some.injEq, m1, m2, m3, m4, m5] at a1 a2 a3 a4 a5
  rw [← a1, ← a2, ← a3, ← a4, ← a5]

end

section
variable {E : FloatEnv ℝ} {p : Project} {sp : ScheduleParams ℝ} {s : List Item}
variable {Ω : Type} [MeasurableSpace Ω] {P : Measure Ω} [IsProbabilityMeasure P] {Z : Nat → Ω → ℝ}

theorem runs_nonneg (hp : p.Sound) (hf : p.FloatsIn E) (hsp : toScheduleParams E p = ok sp) (hs : ValidSchedule sp s) {vs : List Int} {zs rest : List ℝ}
    (h : Runs E p s vs zs rest) : ∀ v ∈ vs, 0 ≤ v := by
  induction h with
  | nil => simp
  | @snoc vs v zs zs' rest sim sim' h hsim hc ih =>
    intro x hx
    rcases List.mem_append.1 hx with hx | hx
    · exact ih x hx
    · rw [List.mem_singleton] at hx
      subst hx
      obtain ⟨bounds, -, hall⟩ := simulation_feasible hp hf hsp hs hsim
      rcases hall zs' with ⟨h0, -⟩ | ⟨v', _, _, _, _, _, _, h1, -, -, -, -, hv, -⟩
      · rw [hc] at h0
        cases h0
      · rw [hc] at h1
        simp only [Outcome.ok.injEq, Option.some.injEq, Prod.mk.injEq] at h1
        rw [h1.1]
        exact hv.1

theorem histogram_of_values {w : Int} (hw : 1 ≤ w) {vs : List Int} (h : ∀ v ∈ vs, 0 ≤ v) : ∃ hist, HistogramOf w vs hist := by
  obtain ⟨hist, bins, h1, -⟩ := histogram_exact hw (uses := vs.map .add) (by simpa using h)
  refine ⟨hist, hw, _, by simpa using h, ?_, h1⟩
  have : ∀ (us vs : List Int), HistogramUse.contents us (vs.map .add) = us ++ vs := by
    intro us vs
    induction vs generalizing us with
    | nil => simp [HistogramUse.contents]
    | cons v vs ih => simp [HistogramUse.contents, ih]
  exact this [] vs

/-- C102. Let the random numbers be independent, have the same law and be nonnegative with a positive probability, and let `π` be the law of the runs.
With probability one, the following holds for the results `r` of the runs, for every bin width, if sufficiently many of them are in the histogram:

* no percentile is below the bin that contains the quantile of `π`;
* the 25th percentile is the middle of the bin that contains the quantile of `π`;
* so are all five, if these are five different bins. -/
theorem percentiles_converge (hE : E.IsExact) (hp : p.Sound) (hsp : toScheduleParams E p = ok sp) (hs : ValidSchedule sp s) (hZ : RandomNumbers P Z) :
    ∃ π : Measure Int, IsProbabilityMeasure π ∧ LawOfRuns P Z E p s π ∧
      ∀ᵐ ω ∂P, ∃ r, ResultsOf E p s (fun i => Z i ω) r ∧ ∀ w : Int, 1 ≤ w →
        (∀ n : Nat, ∃ hist, HistogramOf w ((List.range n).map r) hist) ∧
        (∀ q lo, w ∣ lo → (π (Set.Iio lo)).toReal < q → ∀ᶠ n : Nat in atTop, ∀ hist, HistogramOf w ((List.range n).map r) hist →
          ∃ st, stats E hist = ok st ∧ ∀ x, (q, x) ∈ [(25 / 100, st.p25), (50 / 100, st.p50), (75 / 100, st.p75), (95 / 100, st.p95),
            ((99 / 100 : ℝ), st.p99)] → lo + w / 2 ≤ x) ∧
        (∀ lo, QuantileBin π w (25 / 100) lo → ∀ᶠ n : Nat in atTop, ∀ hist, HistogramOf w ((List.range n).map r) hist →
          ∃ st, stats E hist = ok st ∧ st.p25 = lo + w / 2) ∧
        ∀ l1 l2 l3 l4 l5, QuantileBin π w (25 / 100) l1 → QuantileBin π w (50 / 100) l2 → QuantileBin π w (75 / 100) l3 →
          QuantileBin π w (95 / 100) l4 → QuantileBin π w (99 / 100) l5 → l1 ≠ l2 ∧ l2 ≠ l3 ∧ l3 ≠ l4 ∧ l4 ≠ l5 →
          ∀ᶠ n : Nat in atTop, ∀ hist, HistogramOf w ((List.range n).map r) hist →
            stats E hist = ok ⟨l1 + w / 2, l2 + w / 2, l3 + w / 2, l4 + w / 2, l5 + w / 2⟩ := by
  obtain ⟨π, h1, h2, h3⟩ := runs_independent hp (fun _ _ _ _ => hE _) hsp hs hZ
  refine ⟨π, h1, h2, ?_⟩
  filter_upwards [h3] with ω h3
  obtain ⟨r, h4, h5⟩ := h3
  refine ⟨r, h4, fun w hw => ⟨fun n => ?_, fun q lo hlo hq => percentiles_eventually_above hE h5 hlo hq, fun lo hlo => p25_eventually hE h5 hlo,
    fun l1 l2 l3 l4 l5 a1 a2 a3 a4 a5 hne => percentiles_eventually hE h5 a1 a2 a3 a4 a5 hne⟩⟩
  obtain ⟨N, rest, hr⟩ := h4 n
  exact histogram_of_values hw (runs_nonneg hp (fun _ _ _ _ => hE _) hsp hs hr)

/-- C101. Let the agents' performances be certain and the random numbers symmetric, with the same law. Then the part of the runs that take at least as long
as the makespan says converges, with probability one, to a number that is one half or greater. -/
theorem late_frequency (hE : E.IsExact) (hp : p.Sound) (hsp : toScheduleParams E p = ok sp) (hs : ValidSchedule sp s)
    (hperf : ∀ a ∈ p.agents, a.perfMin = a.perfMax) {start finish : Nat → ℝ} {V : ℝ} {mk : Int}
    (hex : Earliest E (p.secondsParams E sp) s start finish) (hend : IsEnd s finish V) (hmk : IsWholePart mk V)
    (hZ : RandomNumbers P Z) (hsym : SymmetricNumbers P Z) :
    ∃ c : ℝ, 1 / 2 ≤ c ∧ ∀ᵐ ω ∂P, ∃ r, ResultsOf E p s (fun i => Z i ω) r ∧
      Tendsto (fun n : Nat => (((List.range n).countP fun j => decide (mk ≤ r j) : Nat) : ℝ) / n) atTop (𝓝 c) := by
  obtain ⟨π, h1, h2, h3⟩ := runs_independent hp (fun _ _ _ _ => hE _) hsp hs hZ
  have hhalf : 1 / 2 ≤ π (Set.Ici mk) := by
    have h4 := h2 [Set.Ici mk]
    rw [List.map_singleton, List.prod_singleton] at h4
    rw [← h4]
    refine (late_runs hE hp hsp hs hperf hex hend hmk hsym 0).trans (measure_mono ?_)
    rintro ω ⟨N, vs, v, hl, hr, hle⟩
    rw [List.length_eq_zero_iff] at hl
    subst hl
    exact ⟨N, [v], [], hr, .cons hle .nil⟩
  have hc : (π (Set.Ici mk)).toReal = 1 - (π (Set.Iic (mk - 1))).toReal := by
    have hcompl : Set.Ici mk = (Set.Iic (mk - 1))ᶜ := by
      ext v
      simp only [Set.mem_Ici, Set.mem_compl_iff, Set.mem_Iic]
      omega
    rw [hcompl]
    exact probReal_compl_eq_one_sub .of_discrete
  refine ⟨(π (Set.Ici mk)).toReal, ?_, ?_⟩
  · have := ENNReal.toReal_mono (measure_ne_top π _) hhalf
    simpa using this
  · filter_upwards [h3] with ω h3
    obtain ⟨r, h4, h5⟩ := h3
    refine ⟨r, h4, ?_⟩
    rw [hc]
    refine ((h5 (mk - 1)).const_sub 1).congr' ?_
    filter_upwards [eventually_gt_atTop 0] with n hn
    have hsum : ((List.range n).countP fun j => decide (r j ≤ mk - 1)) + ((List.range n).countP fun j => decide (mk ≤ r j)) = n := by
      have := List.length_eq_countP_add_countP (fun j => decide (r j ≤ mk - 1)) (l := List.range n)
      rw [List.length_range] at this
      conv_rhs => rw [this]
      congr 1
      apply List.countP_congr
      intro j _
      simp only [decide_eq_true_eq, not_le]
      omega
    have hn' : (n : ℝ) ≠ 0 := by exact_mod_cast hn.ne'
    have : (((List.range n).countP fun j => decide (mk ≤ r j) : Nat) : ℝ) = n - ((List.range n).countP fun j => decide (r j ≤ mk - 1) : Nat) := by
      rw [eq_sub_iff_add_eq, add_comm]
      exact_mod_cast hsum
    rw [this, sub_div, div_self hn']

section
open Cli CommandLine Doc
variable {read : ReadReal} {isFile : String → Bool} {terminal : Bool} {a : Arguments} {o : Cli.Options ℝ} {m : Machine ℝ} {root : Yaml}

/-- C101 for the command `schedule`, from the command line and the configuration file to the output file. Let the conditions of `document_to_schedule` hold
and let no agent of the document have two different performances. Let the timetable in the file be run again and again. With probability one the part of
the runs that take at least as long as the makespan in the file converges to a number that is one half or greater. -/
theorem written_late_frequency (hE : E.IsExact) (hsig : SignsAgree read) (hnof : isFile "" = false)
    (h : parse E read isFile terminal .schedule a = .accepted o)
    (hz : ∀ t, a.restartPeriod = some t → ¬ LeadingZero t)
    (hb : ∀ t q, a.betaScale = some t → read t = some (.fin q) → ModerateBeta E q)
    (hout : a.output ≠ some "") (hd : m.source = .doc root) (hl : load m.readFloat root = ok p)
    (hs : Schedulable m.readFloat root 1 (2 ^ 31)) (hw : CanWrite m o) (ht : 0 < m.threads)
    (hperf : ∀ w ∈ agents root, ∀ slow fast, Performance m.readFloat w.2 slow fast → slow = fast)
    (hZ : RandomNumbers P Z) (hsym : SymmetricNumbers P Z) :
    ∃ (N : Nat) (mk : Int) (of : List Nat) (es : List TaskEntry), Doc.Timetable m.readFloat root IsWholePart of es ∧
      (∀ fuel, N ≤ fuel → status (body E { m with fuel := fuel } .schedule o).flow = .exit 0 ∧
        ∃ pre post : List (Effect ℝ), (∀ e ∈ pre ++ post, ¬ e.IsFile) ∧
          (body E { m with fuel := fuel } .schedule o).effects = pre ++ [.file (a.output.getD "schedule.json")
            (.obj [("makespan", .int mk), ("tasks", .arr (es.map TaskEntry.object))])] ++ post) ∧
      ∃ c : ℝ, 1 / 2 ≤ c ∧ ∀ᵐ ω ∂P, ∃ r : Nat → Int,
        (∀ n, ∃ k, Simulations m.readFloat root of es ((List.range k).map fun i => Z i ω) ((List.range n).map r)) ∧
        Tendsto (fun n : Nat => (((List.range n).countP fun j => decide (mk ≤ r j) : Nat) : ℝ) / n) atTop (𝓝 c) := by
  obtain ⟨hp, hmod⟩ := schedulable_sound hl hs
  have hfl : p.FloatsIn E := fun _ _ _ _ => hE _
  obtain ⟨sp, hsp, hwf⟩ := params_wellFormed (E := E) hp hfl
  obtain ⟨ho, hf', hout'⟩ := accepted_options_partial (Or.inl hE) hsig hnof h hz hb hout hwf
  obtain ⟨N, s, mk, es, start, finish, V, h1, h2, h3, h4, h5, h6, h7⟩ :=
    schedule_command hE hf' hout' hd hl hp hmod hw ht hsp ho
  obtain ⟨g1, -⟩ := written_timetable hE hl hp hmod hsp h1 h2 h3 h4 h5 h6
  refine ⟨N, mk, s.map Item.task, es, g1, ?_, ?_⟩
  · have : o.output = a.output.getD "schedule.json" := by
      obtain ⟨_, _, _, _, _, _, _, _, _, _, _, _, _, _, _, rfl⟩ := parse_accepted h
      rfl
    rwa [this] at h7
  · have hpc : ∀ a ∈ p.agents, a.perfMin = a.perfMax := by
      intro a ha
      have hll := (load_faithful hl).2
      obtain ⟨k, hk, rfl⟩ := List.mem_iff_getElem.1 ha
      have hk' := List.getElem?_eq_getElem hk
      obtain ⟨w, hw⟩ := agent_of hll hk'
      exact hperf w (List.mem_of_getElem? hw) _ _ (hll.agents_loaded k w _ hw hk').performance
    obtain ⟨c, hc, hae⟩ := late_frequency hE hp hsp h1 hpc h4 h5 h6 hZ hsym
    refine ⟨c, hc, ?_⟩
    filter_upwards [hae] with ω h
    obtain ⟨r, hr, htend⟩ := h
    refine ⟨r, fun n => ?_, htend⟩
    obtain ⟨k, rest, hruns⟩ := hr n
    exact ⟨k, simulations_of_runs hE hl hp hsp h1 h2 (fun i it e hi he => (h3 i it e hi he).1.agent) hruns⟩

end
end

/-! ### Examples -/

/-- Standard normal numbers have the same law and are nonnegative with a positive probability. -/
theorem normals_random : RandomNumbers normals (fun i ω => ω i) where
  measurable := normals_symmetric.measurable
  independent := normals_symmetric.independent
  same := by
    have h1 : ∀ i, normals.map (fun ω => ω i) = gaussianReal 0 1 := fun i => (measurePreserving_eval_infinitePi (fun _ : Nat => gaussianReal 0 1) i).map_eq
    intro i A hA
    have e : ∀ i, {ω : Nat → ℝ | ω i ∈ A} = (fun ω => ω i) ⁻¹' A := fun _ => rfl
    rw [e, e, ← Measure.map_apply (measurable_pi_apply i) hA, ← Measure.map_apply (measurable_pi_apply 0) hA, h1, h1]
  nonneg := by
    intro h0
    have h1 := normals_symmetric.symmetric 0 (Set.Ici 0) measurableSet_Ici
    have h2 : normals {ω : Nat → ℝ | ω 0 ∈ Set.Ici 0} = 0 := h0
    rw [h2] at h1
    have h3 : normals (Set.univ : Set (Nat → ℝ)) ≤ 0 := by
      calc normals (Set.univ : Set (Nat → ℝ)) ≤ normals ({ω : Nat → ℝ | -ω 0 ∈ Set.Ici 0} ∪ {ω : Nat → ℝ | ω 0 ∈ Set.Ici 0}) := by
            refine measure_mono fun ω _ => ?_
            rcases le_total (ω 0) 0 with h | h
            · exact Or.inl (by simpa using h)
            · exact Or.inr h
        _ ≤ 0 := (measure_union_le _ _).trans (by rw [h1, h2]; simp)
    rw [measure_univ] at h3
    simp at h3

namespace Steady
open Cli CommandLine Doc

/-- C101 applies to `angonoka schedule plan.yml` with this document and standard normal numbers. -/
example (draws : Nat → Nat → Nat → Draws ℝ) : ∃ (o : Cli.Options ℝ) (N : Nat) (mk : Int) (of : List Nat) (es : List TaskEntry) (c : ℝ),
    parse FloatEnv.real exampleRead (fun f => f == "plan.yml") true .schedule { input := "plan.yml" } = .accepted o ∧
    Doc.Timetable Sample.number plan IsWholePart of es ∧
    (∀ fuel, N ≤ fuel → status (body FloatEnv.real { machine draws with fuel := fuel } .schedule o).flow = .exit 0) ∧
    1 / 2 ≤ c ∧ ∀ᵐ ω ∂normals, ∃ r : Nat → Int,
      (∀ n, ∃ k, Simulations Sample.number plan of es ((List.range k).map fun i => ω i) ((List.range n).map r)) ∧
      Tendsto (fun n : Nat => (((List.range n).countP fun j => decide (mk ≤ r j) : Nat) : ℝ) / n) atTop (𝓝 c) := by
  have hpar := options_as_given (E := FloatEnv.real) (isFile := fun f => f == "plan.yml") (terminal := true) (c := .schedule)
    (a := { input := "plan.yml" }) exampleRead_naturals (by decide) (batch := 10000) (idle := 100000) (window := 100) (period := 256)
    (Or.inl ⟨rfl, rfl⟩) (Or.inl ⟨rfl, rfl⟩) (Or.inl ⟨rfl, rfl⟩) (Or.inl ⟨rfl, rfl⟩)
    (Or.inl ⟨rfl, rfl⟩) (Or.inl ⟨rfl, rfl⟩) (Or.inl ⟨rfl, rfl⟩)
  have hperf : ∀ w ∈ agents plan, ∀ slow fast, Performance Sample.number w.2 slow fast → slow = fast := by
    intro w hw slow fast hp
    obtain ⟨k, hk, rfl⟩ := List.mem_iff_getElem.1 hw
    have hl := (load_faithful plan_loads).2
    have hk' : k < project.agents.length := by rw [hl.agents_length]; exact hk
    obtain ⟨e1, e2⟩ := (document_values plan_loads).2 k _ _ slow fast (List.getElem?_eq_getElem hk) (List.getElem?_eq_getElem hk') hp
    rw [← e1, ← e2]
    exact (by decide : ∀ a ∈ project.agents, a.perfMin = a.perfMax) _ (List.getElem_mem hk')
  obtain ⟨N, mk, of, es, h1, h2, c, h3, h4⟩ := written_late_frequency (m := machine draws) (fun _ => rfl) exampleRead_signs
    (by decide) hpar (by simp) (by simp) (by simp) rfl plan_loads (sound_schedulable plan_loads plan_sound plan_moderate)
    ⟨⟨rfl, rfl⟩, fun _ => ⟨fun _ => rfl, fun _ => Or.inr (by exact (by decide : 9 ≤ 80))⟩⟩ (by exact (by decide : 0 < 4)) hperf normals_random
    normals_symmetric
  exact ⟨_, N, mk, of, es, c, hpar, h1, fun fuel hN => (h2 fuel hN).1, h3, h4⟩

end Steady

namespace Solo

/-- One agent and one task, that takes between 60 and 100 seconds. -/
def plan : Yaml := Sample.obj [
  ("agents", Sample.obj [("Bob", .null)]),
  ("tasks", .seq [Sample.obj [("name", Sample.str "walls"),
    ("duration", Sample.obj [("min", Sample.str "60 seconds"), ("max", Sample.str "100 seconds")])]])]

/-- What it is loaded as. -/
def project : Project where
  groups := []
  agents := [{ id := 0, name := "Bob", perfMin := .fin 1, perfMax := .fin 1 }]
  tasks := [{ name := "walls", durMin := 60, durMax := 100 }]

theorem plan_loads : load Sample.number plan = ok project := by
  rw [Load.load_eval 20 _ _ (by decide)]
  decide +kernel

theorem sound : project.Sound := by
  refine loaded_sound plan_loads (by decide) ?_ ?_
  · intro a ha
    simp only [project, List.mem_cons, List.not_mem_nil, or_false] at ha
    subst ha
    exact ⟨_, _, rfl, rfl⟩
  · intro t ht
    simp only [project, List.mem_cons, List.not_mem_nil, or_false] at ht
    subst ht
    simp [project, Eligible]

theorem bounds : project.performanceBounds [((1 : ℝ), (1 : ℝ))] := by
  refine .cons ⟨1, 1, ⟨rfl, rfl, by norm_num, le_rfl⟩, by norm_num⟩ .nil

/-- The only schedule. -/
def schedule : List Item := [⟨0, 0⟩]

/-- A random number that is 0, 1, 2, 3 or 4. -/
noncomputable def die : Measure ℝ := ENNReal.ofReal (30 / 100) • Measure.dirac 0 + ENNReal.ofReal (30 / 100) • Measure.dirac 1 +
  ENNReal.ofReal (30 / 100) • Measure.dirac 2 + ENNReal.ofReal (6 / 100) • Measure.dirac 3 + ENNReal.ofReal (4 / 100) • Measure.dirac 4

theorem die_apply {A : Set ℝ} (hA : MeasurableSet A) : die A = ENNReal.ofReal (30 / 100 * A.indicator 1 0 + 30 / 100 * A.indicator 1 1 +
    30 / 100 * A.indicator 1 2 + 6 / 100 * A.indicator 1 3 + 4 / 100 * A.indicator 1 4) := by
  have h : ∀ x : ℝ, (0 : ℝ) ≤ A.indicator 1 x := fun x => Set.indicator_nonneg (fun _ _ => zero_le_one) x
  have e : ∀ x : ℝ, (A.indicator 1 x : ENNReal) = ENNReal.ofReal (A.indicator 1 x) := by
    intro x
    by_cases hx : x ∈ A <;> simp [hx]
  have := h 0
  have := h 1
  have := h 2
  have := h 3
  have := h 4
  simp only [die, Measure.add_apply, Measure.smul_apply, Measure.dirac_apply' _ hA, smul_eq_mul, e]
  rw [← ENNReal.ofReal_mul (by norm_num), ← ENNReal.ofReal_mul (by norm_num), ← ENNReal.ofReal_mul (by norm_num), ← ENNReal.ofReal_mul (by norm_num),
    ← ENNReal.ofReal_mul (by norm_num), ← ENNReal.ofReal_add (by positivity) (by positivity), ← ENNReal.ofReal_add (by positivity) (by positivity),
    ← ENNReal.ofReal_add (by positivity) (by positivity), ← ENNReal.ofReal_add (by positivity) (by positivity)]

instance : IsProbabilityMeasure die := by
  refine ⟨?_⟩
  rw [die_apply .univ]
  simp
  norm_num

/-- Throws of the die. -/
noncomputable def throws : Measure (Nat → ℝ) := Measure.infinitePi fun _ => die

noncomputable instance : IsProbabilityMeasure throws := by
  unfold throws
  infer_instance

theorem throws_map (i : Nat) : throws.map (fun ω => ω i) = die := (measurePreserving_eval_infinitePi (fun _ : Nat => die) i).map_eq

theorem throws_apply (i : Nat) {A : Set ℝ} (hA : MeasurableSet A) : throws {ω | ω i ∈ A} = die A := by
  rw [← throws_map i, Measure.map_apply (measurable_pi_apply i) hA]
  rfl

theorem throws_random : RandomNumbers throws (fun i ω => ω i) where
  measurable := fun i => measurable_pi_apply i
  independent := by
    have := iIndepFun_infinitePi (P := fun _ : Nat => die) (X := fun _ => id) (fun _ => measurable_id)
    exact this
  same := fun i A hA => by rw [throws_apply i hA, throws_apply 0 hA]
  nonneg := by
    have h := throws_apply 0 (measurableSet_Ici (a := (0 : ℝ)))
    have e : {ω : Nat → ℝ | 0 ≤ ω 0} = {ω : Nat → ℝ | ω 0 ∈ Set.Ici 0} := rfl
    rw [e, h, die_apply measurableSet_Ici]
    simp
    norm_num

theorem run_value {sp : ScheduleParams ℝ} (hsp : toScheduleParams FloatEnv.real project = ok sp) (hs : ValidSchedule sp schedule) {ζ : Nat → ℝ} (h0 : 0 ≤ ζ 0) :
    ζ ∈ runStreams FloatEnv.real project schedule ⌊80 + 10 * ζ 0⌋ 1 := by
  have hd : drawn FloatEnv.real 60 100 (ζ 0) = 80 + 10 * ζ 0 := by
    rw [drawn_exact (fun _ => rfl)]
    ring
  have hdb : project.durationBounds FloatEnv.real = [(60, 100)] := by
    simp only [Project.durationBounds, project, FloatEnv.ofInt, List.map_cons, List.map_nil]
    change [(((60 : Int) : ℝ), ((100 : Int) : ℝ))] = _
    norm_num
  refine (runStreams_iff sound (fun _ _ _ _ => rfl) hsp hs bounds rfl).2 ⟨[0, 0], ?_, ?_, ?_⟩
  · rw [hdb]
    norm_num [Reads, hd]
    linarith
  · rw [hdb]
    norm_num [usedCount]
  · rw [hdb]
    norm_num [vals, hd]
    obtain ⟨-, -, -, -, g5, -⟩ := params_faithful sound.agent_groups sound.task_groups hsp
    have hdeps : sp.deps 0 = [] := (g5 0 _ rfl).2.2
    have hdeps' : (sp.sampled [1] [80 + 10 * ζ 0]).deps 0 = [] := hdeps
    have hlen : project.agents.length = 1 := rfl
    have hval : makespanValue FloatEnv.real (sp.sampled [1] [80 + 10 * ζ 0]) 1 schedule = 80 + 10 * ζ 0 := by
      have h1 : depsEnd (sp.sampled [1] [80 + 10 * ζ 0]) (fun _ => 0) 0 = 0 := by
        rw [depsEnd, hdeps']
        rfl
      simp only [makespanValue, schedule, runF, endTime, startTime, FloatEnv.add, ScheduleParams.itemTime, FloatEnv.div, h1]
      change maxOf [max (0 : ℝ) 0 + (80 + 10 * ζ 0) / 1] = _
      simp [maxOf]
    rw [hlen, hval, Simulation.truncate, if_pos (by linarith), ← Int.floor_ofNat_add]

theorem law {sp : ScheduleParams ℝ} (hsp : toScheduleParams FloatEnv.real project = ok sp) (hs : ValidSchedule sp schedule) {π : Measure Int}
    (hπ : LawOfRuns throws (fun i ω => ω i) FloatEnv.real project schedule π) (x : Int) :
    (π (Set.Iio x)).toReal = 30 / 100 * (if 80 < x then 1 else 0) + 30 / 100 * (if 90 < x then 1 else 0) + 30 / 100 * (if 100 < x then 1 else 0) +
      6 / 100 * (if 110 < x then 1 else 0) + 4 / 100 * (if 120 < x then 1 else 0) := by
  have hA : MeasurableSet {z : ℝ | ⌊80 + 10 * z⌋ < x} := by
    have : Measurable fun z : ℝ => ⌊80 + 10 * z⌋ := Int.measurable_floor.comp (by fun_prop)
    exact this (MeasurableSet.of_discrete (s := Set.Iio x))
  have h1 := hπ [Set.Iio x]
  rw [List.map_singleton, List.prod_singleton] at h1
  have h2 : throws {ω | ∃ N vs rest, Runs FloatEnv.real project schedule vs ((List.range N).map fun i => ω i) rest ∧
      List.Forall₂ (fun v A => v ∈ A) vs [Set.Iio x]} = throws {ω | ω 0 ∈ {z : ℝ | ⌊80 + 10 * z⌋ < x}} := by
    have hae : ∀ᵐ ω ∂throws, 0 ≤ ω 0 := by
      refine (mem_ae_iff_prob_eq_one (measurable_pi_apply 0 measurableSet_Ici)).2 ?_
      have h := throws_apply 0 (measurableSet_Ici (a := (0 : ℝ)))
      refine h.trans ?_
      rw [die_apply measurableSet_Ici]
      simp
      norm_num
    refine measure_congr ?_
    filter_upwards [hae] with ω h0
    have hG := run_value hsp hs h0
    refine propext ((results_iff sound (fun _ _ _ _ => rfl) hsp hs [Set.Iio x] ω).symm.trans ?_)
    constructor
    · rintro ⟨v, hv, n, hG', -⟩
      obtain ⟨rfl, -⟩ := (runExperiment sound (fun _ _ _ _ => rfl) hsp hs).unique hG hG'
      exact hv
    · exact fun h => ⟨_, h, 1, hG, trivial⟩
  rw [h2, throws_apply 0 hA, die_apply hA] at h1
  rw [← h1, ENNReal.toReal_ofReal]
  · simp only [Set.indicator, Set.mem_ofPred_eq, Pi.one_apply]
    norm_num
  · have h : ∀ y : ℝ, (0 : ℝ) ≤ {z : ℝ | ⌊80 + 10 * z⌋ < x}.indicator 1 y := fun y => Set.indicator_nonneg (fun _ _ => zero_le_one) y
    have := h 0
    have := h 1
    have := h 2
    have := h 3
    have := h 4
    positivity

theorem schedule_valid {sp : ScheduleParams ℝ} (hsp : toScheduleParams FloatEnv.real project = ok sp) : ValidSchedule sp schedule := by
  obtain ⟨g1, -, -, -, g5, -⟩ := params_faithful sound.agent_groups sound.task_groups hsp
  have g1 : sp.taskCount = 1 := g1
  have h0 := g5 0 _ rfl
  refine ⟨by rw [g1]; decide, ?_, ?_⟩
  · intro pre it post he d hd
    have hit : it ∈ schedule := by simp [he]
    rw [schedule, List.mem_singleton] at hit
    subst hit
    have hd : d ∈ sp.deps 0 := hd
    rw [h0.2.2] at hd
    cases hd
  · intro it hit
    rw [schedule, List.mem_singleton] at hit
    subst hit
    exact (h0.1 0).2 ⟨_, rfl, by simp [Eligible]⟩

/-- C100 applies to this project and standard normal numbers. -/
example : ∃ π : Measure Int, IsProbabilityMeasure π ∧ LawOfRuns normals (fun i ω => ω i) FloatEnv.real project schedule π ∧
    ∀ᵐ ω ∂normals, ∃ r, ResultsOf FloatEnv.real project schedule (fun i => ω i) r ∧ FrequenciesConverge r π := by
  obtain ⟨sp, hsp, hw⟩ := params_wellFormed (E := FloatEnv.real) sound (fun _ _ _ _ => rfl)
  exact runs_independent sound (fun _ _ _ _ => rfl) hsp (schedule_valid hsp) normals_random

/-- C102 applies to this project and this die. In the long run the percentiles are the middles of the five bins from 80 to 130 seconds. -/
example : ∀ᵐ ω ∂throws, ∃ r, ResultsOf FloatEnv.real project schedule (fun i => ω i) r ∧
    ∀ᶠ n : Nat in atTop, ∃ hist, HistogramOf 10 ((List.range n).map r) hist ∧ stats FloatEnv.real hist = ok ⟨85, 95, 105, 115, 125⟩ := by
  obtain ⟨sp, hsp, hw⟩ := params_wellFormed (E := FloatEnv.real) sound (fun _ _ _ _ => rfl)
  have hs := schedule_valid hsp
  obtain ⟨π, h1, h2, h3⟩ := percentiles_converge (fun _ => rfl) sound hsp hs throws_random
  have hlaw := law hsp hs h2
  have hbin : ∀ q lo, (10 : Int) ∣ lo → (30 / 100 * (if 80 < lo then 1 else 0) + 30 / 100 * (if 90 < lo then 1 else 0) + 30 / 100 * (if 100 < lo then 1 else 0) +
      6 / 100 * (if 110 < lo then 1 else 0) + 4 / 100 * (if 120 < lo then 1 else 0) : ℝ) < q → q < (30 / 100 * (if 80 < lo + 10 then 1 else 0) +
      30 / 100 * (if 90 < lo + 10 then 1 else 0) + 30 / 100 * (if 100 < lo + 10 then 1 else 0) + 6 / 100 * (if 110 < lo + 10 then 1 else 0) +
      4 / 100 * (if 120 < lo + 10 then 1 else 0) : ℝ) → QuantileBin π 10 q lo :=
    fun q lo hd ha hb => ⟨hd, by rw [hlaw]; exact ha, by rw [hlaw]; exact hb⟩
  filter_upwards [h3] with ω h3
  obtain ⟨r, h4, h5⟩ := h3
  obtain ⟨g1, -, -, g4⟩ := h5 10 (by norm_num)
  refine ⟨r, h4, ?_⟩
  filter_upwards [g4 80 90 100 110 120 (hbin _ _ (by norm_num) (by norm_num) (by norm_num)) (hbin _ _ (by norm_num) (by norm_num) (by norm_num))
    (hbin _ _ (by norm_num) (by norm_num) (by norm_num)) (hbin _ _ (by norm_num) (by norm_num) (by norm_num))
    (hbin _ _ (by norm_num) (by norm_num) (by norm_num)) (by norm_num)] with n hn
  obtain ⟨hist, hh⟩ := g1 n
  exact ⟨hist, hh, hn hist hh⟩

end Solo
end Angonoka.Props
