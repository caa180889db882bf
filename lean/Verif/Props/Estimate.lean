import Verif.Props.LongRun

/-!
# C105: the histogram that is returned converges to the law of the runs
-/

set_option linter.unusedSectionVars false

namespace Angonoka.Props
open Outcome Stun MeasureTheory ProbabilityTheory Restart Filter Topology

variable {Ω : Type} [MeasurableSpace Ω] {P : Measure Ω} [IsProbabilityMeasure P] {Z : Nat → Ω → ℝ}
variable {E : FloatEnv ℝ} {p : Project} {sp : ScheduleParams ℝ} {s : List Item}

/-- The results of runs are determined by the random numbers. -/
theorem runs_result (hp : p.Sound) (hf : p.FloatsIn E) (hsp : toScheduleParams E p = ok sp) (hs : ValidSchedule sp s) {ζ : ℕ → ℝ} {N : ℕ}
    {vs : List Int} {rest : List ℝ} (h : Runs E p s vs (firsts N ζ) rest) :
    vs = (List.range vs.length).map fun j => (runExperiment hp hf hsp hs).result j ζ := by
  have hall : ζ ∈ (runExperiment hp hf hsp hs).results (List.replicate vs.length Set.univ) := by
    rw [results_iff]
    refine ⟨N, vs, rest, h, ?_⟩
    rw [List.forall₂_iff_get]
    exact ⟨by simp, by simp⟩
  have hthis : ζ ∈ (runExperiment hp hf hsp hs).results (vs.map fun v => {v}) := by
    rw [results_iff]
    refine ⟨N, vs, rest, h, ?_⟩
    rw [List.forall₂_iff_get]
    exact ⟨by simp, by simp⟩
  have h1 := (Experiment.mem_results _ (by simpa using hall)).1 hthis
  apply List.ext_getElem
  · simp
  · intro k hk hk'
    have := h1 k (by simpa using hk)
    simp at this ⊢
    exact this.symm

theorem results_unique (hp : p.Sound) (hf : p.FloatsIn E) (hsp : toScheduleParams E p = ok sp) (hs : ValidSchedule sp s) {ζ : ℕ → ℝ} {r : ℕ → Int}
    (hr : ResultsOf E p s ζ r) {N : ℕ} {vs : List Int} {rest : List ℝ} (h : Runs E p s vs ((List.range N).map ζ) rest) :
    vs = (List.range vs.length).map r := by
  obtain ⟨N', rest', h'⟩ := hr vs.length
  have h1 := runs_result hp hf hsp hs h'
  rw [List.length_map, List.length_range] at h1
  rw [h1]
  exact runs_result hp hf hsp hs h

theorem parse_eq {binSize : Option Int} {mk : Int} {w : Int} (h : parseGranularity binSize mk = ok w) : w = resolutionOf binSize mk := by
  have hm : 1 ≤ mk := by
    by_contra hlt
    obtain ⟨_, h'⟩ := resolution_short (not_le.1 hlt) binSize
    rw [h] at h'
    cases h'
  obtain ⟨h1, h2⟩ := resolution hm
  cases binSize with
  | none =>
    rw [h1] at h
    exact (Outcome.ok.inj h).symm
  | some b =>
    rw [h2 b] at h
    exact (Outcome.ok.inj h).symm

theorem prefix_take (r : ℕ → Int) {n m : ℕ} (h : n ≤ m) : ((List.range m).map r).take n = (List.range n).map r := by
  rw [← List.map_take, List.take_range, min_eq_left h]

/-- A returned histogram is that of the first results. -/
theorem histogram_of_results (hp : p.Sound) (hf : p.FloatsIn E) (hsp : toScheduleParams E p = ok sp) (hs : ValidSchedule sp s) {ζ : ℕ → ℝ} {r : ℕ → Int}
    (hr : ResultsOf E p s ζ r) {binSize : Option Int} {mk : Int} {more : List Int → Outcome Bool} {fuel N : ℕ} {hist : Histogram}
    (h : histogram E p binSize s mk more fuel ((List.range N).map ζ) = ok (some hist)) :
    ∃ k, StopsAfter more r k ∧ HistogramOf (resolutionOf binSize mk) ((List.range (10000 * k)).map r) hist := by
  obtain ⟨w, vs, bins, rest, k, hk, hl, h1, h2, h3, h4, -⟩ := histogram_batches h
  have hvs := results_unique hp hf hsp hs hr h1
  rw [hl] at hvs
  rw [hvs] at h4 h2
  refine ⟨k, ⟨hk, fun j h1 hj => ?_⟩, ?_⟩
  · rw [← h2 j h1 hj, prefix_take r (by omega)]
  · rw [← parse_eq h3]
    exact h4

theorem plenty_eventually {ζ : ℕ → ℝ} (hζ : ∀ n, ∃ i ≥ n, 0 ≤ ζ i) (k : ℕ) :
    ∃ N, ∀ n ≥ N, k ≤ ((List.range n).map ζ).countP fun z => decide (0 ≤ z) := by
  induction k with
  | zero => exact ⟨0, by simp⟩
  | succ k ih =>
    obtain ⟨N, h⟩ := ih
    obtain ⟨i, hi, h0⟩ := hζ N
    refine ⟨i + 1, fun n hn => ?_⟩
    obtain ⟨d, rfl⟩ := Nat.exists_eq_add_of_le hn
    rw [List.range_add, List.map_append, List.countP_append, List.range_succ, List.map_append, List.countP_append]
    have := h i hi
    have e : ([i].map ζ).countP (fun z => decide (0 ≤ z)) = 1 := by simp [h0]
    omega

/-- With sufficiently many random numbers, the histogram is returned. -/
theorem histogram_returned (hp : p.Sound) (hf : p.FloatsIn E) (hsp : toScheduleParams E p = ok sp) (hs : ValidSchedule sp s) {ζ : ℕ → ℝ} {r : ℕ → Int}
    (hζ : ∀ n, ∃ i ≥ n, 0 ≤ ζ i) (hr : ResultsOf E p s ζ r) {binSize : Option Int} (hb : ∀ b ∈ binSize, 1 ≤ b) {mk : Int} (hm : 1 ≤ mk)
    {more : List Int → Outcome Bool} (hmore : ∀ k ≥ 1, ∃ c, more ((List.range (10000 * k)).map r) = ok c) {k : ℕ} (hk : StopsAfter more r k) :
    ∃ N₀, ∀ N ≥ N₀, ∀ fuel ≥ k, ∃ hist, histogram E p binSize s mk more fuel ((List.range N).map ζ) = ok (some hist) := by
  obtain ⟨N₀, hN₀⟩ := plenty_eventually hζ (10000 * k * (p.agents.length + p.tasks.length))
  refine ⟨N₀, fun N hN fuel hfuel => histogram_completes hp hf hsp hs hb hm ?_ hk.1 ?_ hfuel (hN₀ N hN)⟩
  · intro vs rest j hj hl hruns
    rw [results_unique hp hf hsp hs hr hruns, hl]
    exact hmore j hj
  · intro vs rest hruns hl
    rw [results_unique hp hf hsp hs hr hruns, hl, hk.2 k hk.1 le_rfl]
    simp

theorem stops_unique {more : List Int → Outcome Bool} {r : ℕ → Int} {k k' : ℕ} (h : StopsAfter more r k) (h' : StopsAfter more r k') : k = k' := by
  by_contra hne
  rcases Nat.lt_or_gt_of_ne hne with hlt | hlt
  · have h1 := h.2 k h.1 le_rfl
    rw [h'.2 k h.1 hlt.le] at h1
    simp [hlt] at h1
  · have h1 := h'.2 k' h'.1 le_rfl
    rw [h.2 k' h'.1 hlt.le] at h1
    simp [hlt] at h1

/-- C105, the program ends and uses the right results. Let the random numbers be independent, have the same law and be nonnegative with a positive
probability. Then, in whatever arithmetic, there is a law `π` of the runs, which are independent, and with probability one there are results `r` whose
frequencies converge to `π`, such that for every bin size, makespan and stopping rule:

* if the rule, asked about these results, does not fail and says to stop after `10000 * k` of them, then `histogram` returns, as soon as the generator
  has yielded enough numbers;
* whatever histogram it returns is that of the first `10000 * k` of these results, where the rule says to stop. -/
theorem histogram_estimates (hp : p.Sound) (hf : p.FloatsIn E) (hsp : toScheduleParams E p = ok sp) (hs : ValidSchedule sp s) (hZ : RandomNumbers P Z) :
    ∃ π : Measure Int, IsProbabilityMeasure π ∧ LawOfRuns P Z E p s π ∧
      ∀ᵐ ω ∂P, ∃ r, FrequenciesConverge r π ∧ ∀ (binSize : Option Int) (mk : Int) (more : List Int → Outcome Bool),
        ((∀ b ∈ binSize, 1 ≤ b) → 1 ≤ mk → (∀ k ≥ 1, ∃ c, more ((List.range (10000 * k)).map r) = ok c) → ∀ k, StopsAfter more r k →
          ∃ N₀, ∀ N ≥ N₀, ∀ fuel ≥ k, ∃ hist, histogram E p binSize s mk more fuel ((List.range N).map fun i => Z i ω) = ok (some hist)) ∧
        ∀ fuel N hist, histogram E p binSize s mk more fuel ((List.range N).map fun i => Z i ω) = ok (some hist) →
          ∃ k, StopsAfter more r k ∧ HistogramOf (resolutionOf binSize mk) ((List.range (10000 * k)).map r) hist := by
  obtain ⟨π, h1, h2, h3⟩ := runs_independent hp hf hsp hs hZ
  refine ⟨π, h1, h2, ?_⟩
  filter_upwards [h3, hZ.infinitely_often] with ω h3 h0
  obtain ⟨r, h4, h5⟩ := h3
  exact ⟨r, h5, fun binSize mk more => ⟨fun hb hm hmore k hk => histogram_returned hp hf hsp hs h0 h4 hb hm hmore hk,
    fun fuel N hist h => histogram_of_results hp hf hsp hs h4 h⟩⟩

/-- The part of the results in an interval. -/
theorem frequency_bin {r : ℕ → Int} {π : Measure Int} [IsProbabilityMeasure π] (h : FrequenciesConverge r π) {lo hi : Int} (hle : lo ≤ hi) :
    Tendsto (fun n : ℕ => ((((List.range n).map r).countP fun v => decide (lo ≤ v ∧ v < hi) : ℕ) : ℝ) / n) atTop
      (𝓝 (π (Set.Ico lo hi)).toReal) := by
  have h1 := (frequency_lt h hi).sub (frequency_lt h lo)
  have e : (π (Set.Iio hi)).toReal - (π (Set.Iio lo)).toReal = (π (Set.Ico lo hi)).toReal := by
    have : Set.Ico lo hi = Set.Iio hi \ Set.Iio lo := by
      ext v
      simp
    rw [this, measure_sdiff (Set.Iio_subset_Iio hle) (measurableSet_Iio.nullMeasurableSet) (measure_ne_top _ _),
      ENNReal.toReal_sub_of_le (measure_mono (Set.Iio_subset_Iio hle)) (measure_ne_top _ _)]
  rw [e] at h1
  refine h1.congr fun n => ?_
  rw [← sub_div]
  congr 1
  have hc : ∀ vs : List Int, vs.countP (fun v => decide (v < hi)) = vs.countP (fun v => decide (v < lo)) + vs.countP fun v => decide (lo ≤ v ∧ v < hi) := by
    intro vs
    induction vs with
    | nil => rfl
    | cons v vs ih =>
      simp only [List.countP_cons, ih, decide_eq_true_eq]
      split_ifs <;> omega
  rw [hc]
  push_cast
  ring

/-- C105, what the histogram converges to. In exact arithmetic, with the assumptions and the law `π` of `histogram_estimates`: with probability one the
following holds for every width of the bins, and for every stopping rule that does not stop too early.

* For every bin and every tolerance: the part of the counted runs that the histogram has in this bin is, up to the tolerance, the probability of the bin.
* No percentile is below the bin that contains the quantile of `π`, and the 25th percentile is the middle of this bin.
* If the five quantiles lie in different bins, then the five percentiles are the middles of these bins. -/
theorem estimates_converge (hE : E.IsExact) (hp : p.Sound) (hsp : toScheduleParams E p = ok sp) (hs : ValidSchedule sp s) (hZ : RandomNumbers P Z) :
    ∃ π : Measure Int, IsProbabilityMeasure π ∧ LawOfRuns P Z E p s π ∧
      ∀ᵐ ω ∂P, ∀ w : Int, 1 ≤ w →
        (∀ lo (ε : ℝ), w ∣ lo → 0 < ε → InTheLongRun E p s (fun i => Z i ω) w fun hist => BinFraction hist lo (π (Set.Ico lo (lo + w))).toReal ε) ∧
        (∀ q lo, w ∣ lo → (π (Set.Iio lo)).toReal < q → InTheLongRun E p s (fun i => Z i ω) w fun hist =>
          ∃ st, stats E hist = ok st ∧ ∀ x, (q, x) ∈ st.percentiles ℝ → lo + w / 2 ≤ x) ∧
        (∀ lo, QuantileBin π w (25 / 100) lo → InTheLongRun E p s (fun i => Z i ω) w fun hist => ∃ st, stats E hist = ok st ∧ st.p25 = lo + w / 2) ∧
        ∀ l1 l2 l3 l4 l5, QuantileBin π w (25 / 100) l1 → QuantileBin π w (50 / 100) l2 → QuantileBin π w (75 / 100) l3 →
          QuantileBin π w (95 / 100) l4 → QuantileBin π w (99 / 100) l5 → l1 ≠ l2 ∧ l2 ≠ l3 ∧ l3 ≠ l4 ∧ l4 ≠ l5 →
          InTheLongRun E p s (fun i => Z i ω) w fun hist => stats E hist = ok ⟨l1 + w / 2, l2 + w / 2, l3 + w / 2, l4 + w / 2, l5 + w / 2⟩ := by
  have hf : p.FloatsIn E := fun _ _ _ _ => hE _
  obtain ⟨π, h1, h2, h3⟩ := runs_independent hp hf hsp hs hZ
  refine ⟨π, h1, h2, ?_⟩
  filter_upwards [h3] with ω h3
  obtain ⟨r, h4, h5⟩ := h3
  intro w hw
  have key : ∀ Good : Histogram → Prop, (∀ᶠ n : ℕ in atTop, ∀ hist, HistogramOf w ((List.range n).map r) hist → Good hist) → InTheLongRun E p s (fun i => Z i ω) w Good := by
    intro Good hG
    obtain ⟨k₀, hk₀⟩ := eventually_atTop.1 hG
    refine ⟨k₀, fun binSize mk more fuel N hist hw' hmore h => ?_⟩
    obtain ⟨k, hk, hh⟩ := histogram_of_results hp hf hsp hs h4 h
    rw [← hw'] at hh
    refine hk₀ _ ?_ hist hh
    by_contra hlt
    have h6 := hmore ((List.range (10000 * k)).map r) (by simpa using hlt)
    rw [hk.2 k hk.1 le_rfl] at h6
    simp at h6
  refine ⟨fun lo ε hlo hε => key _ ?_, fun q lo hlo hq => key _ (percentiles_eventually_above hE h5 hlo hq), fun lo hlo => key _ (p25_eventually hE h5 hlo),
    fun l1 l2 l3 l4 l5 a1 a2 a3 a4 a5 hne => key _ (percentiles_eventually hE h5 a1 a2 a3 a4 a5 hne)⟩
  have h6 := frequency_bin h5 (lo := lo) (hi := lo + w) (by omega)
  filter_upwards [(Metric.tendsto_nhds.1 h6) ε hε, eventually_gt_atTop 0] with n hn hn0 hist hh
  obtain ⟨-, uses, u1, u2, u3⟩ := hh
  obtain ⟨h', bins, g1, g2, g3, g4, -⟩ := histogram_exact hw u1
  rw [u3] at g1
  cases g1
  rw [u2] at g3 g4
  rw [Real.dist_eq] at hn
  refine ⟨bins, g2, fun b hb hl => ?_, fun hno => ?_⟩
  · have hc : (b.count : ℝ) = (((List.range n).map r).countP fun v => decide (lo ≤ v ∧ v < lo + w) : ℕ) := by
      rw [g3.counts b hb]
      simp only [Bin.Contains, (g3.width b hb).1, hl, Int.cast_natCast]
    rw [hc, g4, List.length_map, List.length_range, Int.cast_natCast]
    exact hn
  · have hc : (((List.range n).map r).countP fun v => decide (lo ≤ v ∧ v < lo + w)) = 0 := by
      rw [List.countP_eq_zero]
      intro v hv hcon
      obtain ⟨b, hb, hbv⟩ := g3.covers v hv
      have hcon := of_decide_eq_true hcon
      apply hno b hb
      obtain ⟨e1, a, e2⟩ := g3.width b hb
      obtain ⟨c, rfl⟩ := hlo
      unfold Bin.Contains at hbv
      rw [e1, e2] at hbv
      rw [e2]
      have hac : a = c := by
        have h1 : w * a < w * (c + 1) := by linarith
        have h2 : w * c < w * (a + 1) := by linarith
        have := lt_of_mul_lt_mul_left h1 (by omega)
        have := lt_of_mul_lt_mul_left h2 (by omega)
        omega
      rw [hac]
    rw [hc, Nat.cast_zero, zero_div] at hn
    exact hn

/-- C105 applies to the project and the die of C102. If the rule stops after `k` batches, and `k` is large, then the histogram that is returned
has the middles of the five bins from 80 to 130 seconds as percentiles. -/
example : ∀ᵐ ω ∂Solo.throws, ∃ k₀, ∀ k ≥ k₀, ∃ N₀, ∀ N ≥ N₀, ∃ hist,
    histogram FloatEnv.real Solo.project (some 10) Solo.schedule 80 (fun vs => ok (decide (vs.length < 10000 * k))) k ((List.range N).map ω) = ok (some hist) ∧
    stats FloatEnv.real hist = ok ⟨85, 95, 105, 115, 125⟩ := by
  obtain ⟨sp, hsp, hw⟩ := params_wellFormed (E := FloatEnv.real) Solo.sound (fun _ _ _ _ => rfl)
  have hs := Solo.schedule_valid hsp
  obtain ⟨_, _, _, h3⟩ := histogram_estimates Solo.sound (fun _ _ _ _ => rfl) hsp hs Solo.throws_random
  obtain ⟨π, _, h2, h4⟩ := estimates_converge (fun _ => rfl) Solo.sound hsp hs Solo.throws_random
  have hlaw := Solo.law hsp hs h2
  have hbin : ∀ q lo, (10 : Int) ∣ lo → (30 / 100 * (if 80 < lo then 1 else 0) + 30 / 100 * (if 90 < lo then 1 else 0) + 30 / 100 * (if 100 < lo then 1 else 0) +
      6 / 100 * (if 110 < lo then 1 else 0) + 4 / 100 * (if 120 < lo then 1 else 0) : ℝ) < q → q < (30 / 100 * (if 80 < lo + 10 then 1 else 0) +
      30 / 100 * (if 90 < lo + 10 then 1 else 0) + 30 / 100 * (if 100 < lo + 10 then 1 else 0) + 6 / 100 * (if 110 < lo + 10 then 1 else 0) +
      4 / 100 * (if 120 < lo + 10 then 1 else 0) : ℝ) → QuantileBin π 10 q lo :=
    fun q lo hd ha hb => ⟨hd, by rw [hlaw]; exact ha, by rw [hlaw]; exact hb⟩
  filter_upwards [h3, h4] with ω h3 h4
  obtain ⟨r, -, h3⟩ := h3
  obtain ⟨-, -, -, g⟩ := h4 10 (by norm_num)
  obtain ⟨n, g⟩ := g 80 90 100 110 120 (hbin _ _ (by norm_num) (by norm_num) (by norm_num)) (hbin _ _ (by norm_num) (by norm_num) (by norm_num))
    (hbin _ _ (by norm_num) (by norm_num) (by norm_num)) (hbin _ _ (by norm_num) (by norm_num) (by norm_num))
    (hbin _ _ (by norm_num) (by norm_num) (by norm_num)) (by norm_num)
  refine ⟨n + 1, fun k hk => ?_⟩
  obtain ⟨N₀, h5⟩ := (h3 (some 10) 80 fun vs => ok (decide (vs.length < 10000 * k))).1 (by simp) (by norm_num) (fun _ _ => ⟨_, rfl⟩) k
    ⟨by omega, fun j _ hj => by simp⟩
  refine ⟨N₀, fun N hN => ?_⟩
  obtain ⟨hist, hh⟩ := h5 N hN k le_rfl
  exact ⟨hist, hh, g (some 10) 80 _ k N hist rfl (fun vs hvs => by simp; omega) hh⟩

end Angonoka.Props
