import Mathlib.MeasureTheory.Function.Floor
import Verif.Proof.Restart
import Verif.Spec.LongRun
import Verif.Props.Median
import Verif.Props.Completes

/-!
# C100: the runs of the simulation are independent, and their frequencies converge
-/

set_option linter.unusedSectionVars false

namespace Angonoka.Props
open Outcome Stun MeasureTheory ProbabilityTheory Restart Filter Topology

variable {Ω : Type} [MeasurableSpace Ω] {P : Measure Ω} [IsProbabilityMeasure P] {Z : Nat → Ω → ℝ}

theorem RandomNumbers.map_eq (h : RandomNumbers P Z) (i : Nat) : P.map (Z i) = P.map (Z 0) := by
  ext A hA
  rw [Measure.map_apply (h.measurable i) hA, Measure.map_apply (h.measurable 0) hA]
  exact h.same i A hA

theorem RandomNumbers.infinitely_often (h : RandomNumbers P Z) : ∀ᵐ ω ∂P, ∀ n, ∃ i ≥ n, 0 ≤ Z i ω := by
  have hl := measure_limsup_eq_one (μ := P) (s := fun i => Z i ⁻¹' Set.Ici 0) (fun i => h.measurable i measurableSet_Ici) ?_ ?_
  · have hset : Filter.limsup (fun i => Z i ⁻¹' Set.Ici 0) Filter.atTop = {ω | ∀ n, ∃ i ≥ n, 0 ≤ Z i ω} := by
      rw [Filter.limsup_eq_iInf_iSup_of_nat]
      ext ω
      simp
    rw [hset] at hl
    refine (mem_ae_iff_prob_eq_one ?_).2 hl
    rw [← hset]
    exact MeasurableSet.measurableSet_limsup fun i => h.measurable i measurableSet_Ici
  · rw [iIndepSet_iff_meas_biInter fun i => h.measurable i measurableSet_Ici]
    intro S
    exact h.independent.measure_inter_preimage_eq_mul S fun i _ => measurableSet_Ici
  · have : ∀ i, P (Z i ⁻¹' Set.Ici 0) = P {ω | 0 ≤ Z 0 ω} := fun i => h.same i _ measurableSet_Ici
    simp only [this]
    exact ENNReal.tsum_const_eq_top_of_ne_zero h.nonneg

theorem firsts_append (n m : ℕ) (ζ : ℕ → ℝ) : firsts (n + m) ζ = firsts n ζ ++ firsts m (shift n ζ) := by
  unfold firsts shift
  rw [List.range_add, List.map_append, List.map_map]
  simp [Function.comp_def, Nat.add_comm]

/-- What is sampled from a stream. -/
theorem reads_of_samples {E : FloatEnv ℝ} {bs : Marked} {xs rest : List ℝ} {N : ℕ} {ζ : ℕ → ℝ}
    (h : Samples E (bs.map Prod.snd) xs (firsts N ζ) rest) :
    ∃ ks, Reads E bs ks ζ ∧ vals E bs ks ζ = xs ∧ usedCount bs ks + rest.length = N := by
  induction bs generalizing xs N ζ with
  | nil =>
    cases h
    exact ⟨[], trivial, rfl, by simp [usedCount, firsts]⟩
  | cons b bs ih =>
    obtain ⟨m, lo, hi⟩ := b
    rw [List.map_cons] at h
    generalize hzs : firsts N ζ = zs at h
    cases h with
    | fixed h =>
      subst hzs
      obtain ⟨ks, h1, h2, h3⟩ := ih h
      exact ⟨0 :: ks, by simp [Reads, h1], by simp [vals, h2], by simpa [usedCount] using h3⟩
    | @drawn _ _ _ z xs zs' rest rejected hne hr hz h =>
      have hlen : N = rejected.length + 1 + zs'.length := by
        have := congrArg List.length hzs
        simp only [firsts, List.length_map, List.length_range, List.length_append, List.length_cons] at this
        omega
      rw [hlen, firsts_add] at hzs
      have h0 := List.append_inj hzs (by simp [firsts])
      obtain ⟨e1, e2⟩ := h0
      rw [List.cons.injEq] at e2
      obtain ⟨e2, e3⟩ := e2
      rw [← e3] at h
      obtain ⟨ks, h1, h2, h3⟩ := ih h
      refine ⟨rejected.length :: ks, ?_, ?_, ?_⟩
      · simp only [Reads, if_neg hne]
        refine ⟨fun i hi' => hr _ ?_, by rwa [e2], h1⟩
        rw [← e1]
        exact List.mem_map_of_mem (List.mem_range.2 hi')
      · simp only [vals, if_neg hne]
        rw [h2, e2]
      · simp only [usedCount, if_neg hne]
        omega

theorem samples_concat {E : FloatEnv ℝ} {b₁ b₂ : List (ℝ × ℝ)} {x₁ x₂ zs mid rest : List ℝ} (h₁ : Samples E b₁ x₁ zs mid)
    (h₂ : Samples E b₂ x₂ mid rest) : Samples E (b₁ ++ b₂) (x₁ ++ x₂) zs rest := by
  induction h₁ with
  | nil => exact h₂
  | fixed _ ih => exact .fixed (ih h₂)
  | drawn rej hne hr hz _ ih => exact .drawn rej hne hr hz (ih h₂)

section
variable {E : FloatEnv ℝ} {p : Project} {sp : ScheduleParams ℝ} {s : List Item}

/-- The streams of which a run uses the first `n` numbers to return `v`. -/
def runStreams (E : FloatEnv ℝ) (p : Project) (s : List Item) (v : Int) (n : ℕ) : Set (ℕ → ℝ) :=
  {ζ | ∃ sim sim', SimulationFor E p sim ∧ sim.call E s (firsts n ζ) = ok (some (v, [], sim'))}

theorem runStreams_iff (hp : p.Sound) (hf : p.FloatsIn E) (hsp : toScheduleParams E p = ok sp) (hs : ValidSchedule sp s)
    {bounds : List (ℝ × ℝ)} (hb : p.performanceBounds bounds) {bs : Marked} (hbs : bs = (bounds ++ p.durationBounds E).map fun b => (false, b))
    {v : Int} {n : ℕ} {ζ : ℕ → ℝ} : ζ ∈ runStreams E p s v n ↔ ∃ ks, Reads E bs ks ζ ∧ usedCount bs ks = n ∧
      Simulation.truncate (makespanValue E (sp.sampled ((vals E bs ks ζ).take bounds.length) ((vals E bs ks ζ).drop bounds.length))
        p.agents.length s) = v := by
  have hsnd : bs.map Prod.snd = bounds ++ p.durationBounds E := by
    rw [hbs, List.map_map]
    exact List.map_id _
  obtain ⟨sim₀, hsim₀⟩ := simulation_exists p E hp
  constructor
  · rintro ⟨sim, sim', hsim, hc⟩
    obtain ⟨sp', hsp', hw⟩ := params_wellFormed (E := E) hp hf
    rw [hsp] at hsp'
    cases hsp'
    obtain ⟨g1, g2, g3, g4, g5, g6⟩ := params_faithful hp.agent_groups hp.task_groups hsp
    obtain ⟨bounds', hb', hall⟩ := simCall_ok (E := E) (sp := sp) (s := s) hsim.shape hp.performance
      hp.durations (fun i t hi => (g5 i t hi).2.2) hp.deps_lt (hs.length.trans g1)
      (fun it hit => by
        have := hs.fits hw hit
        rw [g1, g2] at this
        exact ⟨this.task_n, this.agent_m⟩)
    cases performanceBounds_unique hb hb'
    rcases hall (firsts n ζ) with h | ⟨perf, dur, zs', rest, sim'', s1, s2, hc'⟩
    · rw [hc] at h
      cases h.1
    · rw [hc] at hc'
      simp only [Outcome.ok.injEq, Option.some.injEq, Prod.mk.injEq] at hc'
      obtain ⟨hv, rfl, -⟩ := hc'
      have h3 := samples_concat s1 s2
      rw [← hsnd] at h3
      obtain ⟨ks, h4, h5, h6⟩ := reads_of_samples h3
      refine ⟨ks, h4, by simpa using h6, ?_⟩
      rw [h5, ← s1.length, List.take_left, List.drop_left]
      exact hv.symm
  · rintro ⟨ks, h1, h2, h3⟩
    have h4 := h1.samples []
    rw [List.append_nil, h2, hsnd] at h4
    obtain ⟨perf, dur, mid, hx, h5, h6⟩ := samples_append h4
    obtain ⟨sim', hc⟩ := call_of_samples hp hf hsp hs hsim₀ hb h5 h6
    refine ⟨sim₀, sim', hsim₀, ?_⟩
    rw [hx, ← h5.length, List.take_left, List.drop_left] at h3
    rw [h3] at hc
    exact hc

theorem measurable_truncate : Measurable (Simulation.truncate : ℝ → Int) := by
  unfold Simulation.truncate
  exact Measurable.ite measurableSet_Ici Int.measurable_floor Int.measurable_ceil

theorem measurable_runStreams (hp : p.Sound) (hf : p.FloatsIn E) (hsp : toScheduleParams E p = ok sp) (hs : ValidSchedule sp s) (v : Int) (n : ℕ) :
    MeasurableSet (runStreams E p s v n) := by
  obtain ⟨bounds, _, hb⟩ := performanceBounds_ok (K := ℝ) hp.performance
  set bs : Marked := (bounds ++ p.durationBounds E).map fun b => (false, b) with hbs
  have hset : runStreams E p s v n = ⋃ ks, ({ζ | Reads E bs ks ζ} ∩ ({_ζ | usedCount bs ks = n} ∩ {ζ | Simulation.truncate
      (makespanValue E (sp.sampled ((vals E bs ks ζ).take bounds.length) ((vals E bs ks ζ).drop bounds.length)) p.agents.length s) ∈ ({v} : Set Int)})) := by
    ext ζ
    rw [runStreams_iff hp hf hsp hs hb hbs]
    simp
  rw [hset]
  refine .iUnion fun ks => (measurable_reads bs ks).inter ((MeasurableSet.const _).inter ?_)
  have hm := measurable_vals (E := E) bs ks
  have h := measurable_makespanValue (E := E) sp (perf := fun ζ => (vals E bs ks ζ).take bounds.length)
    (dur := fun ζ => (vals E bs ks ζ).drop bounds.length) ?_ ?_ p.agents.length s
  · exact (measurable_truncate.comp h) (MeasurableSet.singleton v)
  · intro i
    have : (fun ζ => ((vals E bs ks ζ).take bounds.length).getD i 0) = fun ζ => if i < bounds.length then (vals E bs ks ζ).getD i 0 else 0 := by
      funext ζ
      simp only [List.getD_eq_getElem?_getD, List.getElem?_take]
      split_ifs <;> simp
    rw [this]
    split_ifs
    · exact hm i
    · exact measurable_const
  · intro i
    simp only [getD_drop]
    exact hm _

/-- A run of the simulation as an experiment. -/
noncomputable def runExperiment (hp : p.Sound) (hf : p.FloatsIn E) (hsp : toScheduleParams E p = ok sp) (hs : ValidSchedule sp s) : Experiment where
  G := runStreams E p s
  measurable := measurable_runStreams hp hf hsp hs
  isLocal := by
    rintro v n ζ ζ' h ⟨sim, sim', h1, h2⟩
    refine ⟨sim, sim', h1, ?_⟩
    have : firsts n ζ' = firsts n ζ := List.map_congr_left fun i hi => (h i (List.mem_range.1 hi)).symm
    rwa [this]
  unique := by
    intro v n v' n' ζ h h'
    obtain ⟨bounds, _, hb⟩ := performanceBounds_ok (K := ℝ) hp.performance
    obtain ⟨ks, h1, h2, h3⟩ := (runStreams_iff hp hf hsp hs hb rfl).1 h
    obtain ⟨ks', h1', h2', h3'⟩ := (runStreams_iff hp hf hsp hs hb rfl).1 h'
    cases Reads.unique h1 h1'
    exact ⟨h3.symm.trans h3', h2.symm.trans h2'⟩

theorem runs_cons {vs : List Int} {v : Int} {zs mid rest : List ℝ} {sim sim' : Simulation ℝ} (hsim : SimulationFor E p sim)
    (hc : sim.call E s zs = ok (some (v, mid, sim'))) (h : Runs E p s vs mid rest) : Runs E p s (v :: vs) zs rest := by
  induction h with
  | nil => exact .snoc (vs := []) .nil hsim hc
  | snoc h hs hc' ih => exact .snoc (ih hc) hs hc'

theorem runs_nil {zs rest : List ℝ} (h : Runs E p s [] zs rest) : zs = rest := by
  generalize hw : ([] : List Int) = ws at h
  cases h with
  | nil => rfl
  | snoc => simp at hw

theorem runs_uncons {vs : List Int} {v : Int} {zs rest : List ℝ} (h : Runs E p s (v :: vs) zs rest) :
    ∃ mid sim sim', SimulationFor E p sim ∧ sim.call E s zs = ok (some (v, mid, sim')) ∧ Runs E p s vs mid rest := by
  generalize hw : v :: vs = ws at h
  induction h generalizing vs with
  | nil => cases hw
  | @snoc us u zs zs' rest sim sim' h hs hc ih =>
    cases us with
    | nil =>
      rw [List.nil_append, List.cons.injEq] at hw
      obtain ⟨rfl, rfl⟩ := hw
      cases runs_nil h
      exact ⟨_, _, _, hs, hc, .nil⟩
    | cons w us =>
      rw [List.cons_append, List.cons.injEq] at hw
      obtain ⟨rfl, rfl⟩ := hw
      obtain ⟨mid, sim₁, sim₂, h1, h2, h3⟩ := ih rfl
      exact ⟨mid, sim₁, sim₂, h1, h2, .snoc h3 hs hc⟩

theorem results_iff (hp : p.Sound) (hf : p.FloatsIn E) (hsp : toScheduleParams E p = ok sp) (hs : ValidSchedule sp s) (As : List (Set Int))
    (ζ : ℕ → ℝ) : ζ ∈ (runExperiment hp hf hsp hs).results As ↔
      ∃ N vs rest, Runs E p s vs (firsts N ζ) rest ∧ List.Forall₂ (fun v A => v ∈ A) vs As := by
  induction As generalizing ζ with
  | nil =>
    simp only [Experiment.results, Set.mem_univ, true_iff]
    exact ⟨0, [], _, .nil, .nil⟩
  | cons A As ih =>
    constructor
    · rintro ⟨v, hv, n, ⟨sim, sim', hsim, hc⟩, h⟩
      obtain ⟨N, vs, rest, h1, h2⟩ := (ih _).1 h
      obtain ⟨used, hu, hloc⟩ := simulation_local hp hf hsp hs hsim hc
      rw [List.append_nil] at hu
      obtain ⟨sim'', hc'⟩ := hloc (firsts N (shift n ζ))
      refine ⟨n + N, v :: vs, rest, ?_, .cons hv h2⟩
      rw [firsts_append, hu]
      exact runs_cons hsim hc' h1
    · rintro ⟨N, vs, rest, h1, h2⟩
      cases h2 with
      | @cons v _ vs _ hv h2 =>
        obtain ⟨mid, sim, sim', hsim, hc, h3⟩ := runs_uncons h1
        obtain ⟨used, hu, hloc⟩ := simulation_local hp hf hsp hs hsim hc
        obtain ⟨sim'', hc'⟩ := hloc []
        have hN : N = used.length + mid.length := by
          have := congrArg List.length hu
          simpa [firsts] using this
        rw [hN, firsts_append] at hu
        obtain ⟨e1, e2⟩ := List.append_inj hu (by simp [firsts])
        refine ⟨v, hv, used.length, ⟨sim, sim'', hsim, ?_⟩, (ih _).2 ⟨mid.length, vs, rest, ?_, h2⟩⟩
        · rw [e1]
          rw [List.append_nil] at hc'
          exact hc'
        · rw [e2]
          exact h3

theorem run_exists (hp : p.Sound) (hf : p.FloatsIn E) (hsp : toScheduleParams E p = ok sp) (hs : ValidSchedule sp s) {ζ : ℕ → ℝ}
    (hζ : ∀ n, ∃ i ≥ n, 0 ≤ ζ i) : ∃ v n, ζ ∈ runStreams E p s v n := by
  have hN : ∀ k, ∃ N, k ≤ plenty (firsts N ζ) := by
    intro k
    induction k with
    | zero => exact ⟨0, by simp⟩
    | succ k ih =>
      obtain ⟨N, h⟩ := ih
      obtain ⟨i, hi, h0⟩ := hζ N
      refine ⟨N + (i - N + 1), ?_⟩
      rw [firsts_append]
      unfold plenty at h ⊢
      rw [List.countP_append]
      have : 0 < (firsts (i - N + 1) (shift N ζ)).countP fun z => decide (0 ≤ z) := by
        rw [List.countP_pos_iff]
        refine ⟨ζ i, List.mem_map.2 ⟨i - N, by simp, ?_⟩, by simpa using h0⟩
        simp only [shift]
        congr 1
        omega
      omega
  obtain ⟨N, h⟩ := hN (p.agents.length + p.tasks.length)
  obtain ⟨sim, hsim⟩ := simulation_exists p E hp
  obtain ⟨v, rest, sim', hc, -⟩ := run_completes hp hf hsp hs hsim h
  obtain ⟨used, hu, hloc⟩ := simulation_local hp hf hsp hs hsim hc
  obtain ⟨sim'', hc'⟩ := hloc []
  have hl : N = used.length + rest.length := by
    have := congrArg List.length hu
    simpa [firsts] using this
  rw [hl, firsts_append] at hu
  obtain ⟨e1, e2⟩ := List.append_inj hu (by simp [firsts])
  refine ⟨v, used.length, sim, sim'', hsim, ?_⟩
  rw [e1]
  rwa [List.append_nil] at hc'

theorem run_certain (hp : p.Sound) (hf : p.FloatsIn E) (hsp : toScheduleParams E p = ok sp) (hs : ValidSchedule sp s) (hZ : RandomNumbers P Z) :
    (runExperiment hp hf hsp hs).chance P Z Set.univ = 1 := by
  have hZm : Measurable fun ω i => Z i ω := measurable_pi_lambda _ hZ.measurable
  have hm : MeasurableSet {ω | ∃ v ∈ Set.univ, ∃ n, (fun i => Z i ω) ∈ (runExperiment hp hf hsp hs).G v n} := by
    have : {ω | ∃ v ∈ Set.univ, ∃ n, (fun i => Z i ω) ∈ (runExperiment hp hf hsp hs).G v n} =
        ⋃ v, ⋃ n, (fun ω i => Z i ω) ⁻¹' (runExperiment hp hf hsp hs).G v n := by
      ext ω
      simp
    rw [this]
    exact .iUnion fun v => .iUnion fun n => hZm ((runExperiment hp hf hsp hs).measurable v n)
  refine (mem_ae_iff_prob_eq_one hm).1 ?_
  filter_upwards [hZ.infinitely_often] with ω h
  obtain ⟨v, n, h⟩ := run_exists hp hf hsp hs h
  exact ⟨v, trivial, n, h⟩

/-- C100. Let random numbers be independent, have the same law and be nonnegative with a positive probability. Then, in whatever arithmetic, there is a law `π`
on the possible results of a run such that the runs are independent with this law (so they end with probability one: take the set of all results);
and with probability one, all runs end and the part of the first `n` that take at most `x` seconds converges to the probability of this, for every `x`. -/
theorem runs_independent (hp : p.Sound) (hf : p.FloatsIn E) (hsp : toScheduleParams E p = ok sp) (hs : ValidSchedule sp s) (hZ : RandomNumbers P Z) :
    ∃ π : Measure Int, IsProbabilityMeasure π ∧ LawOfRuns P Z E p s π ∧
      ∀ᵐ ω ∂P, ∃ r, ResultsOf E p s (fun i => Z i ω) r ∧ FrequenciesConverge r π := by
  set X := runExperiment hp hf hsp hs with hX
  have hall := run_certain hp hf hsp hs hZ
  rw [← hX] at hall
  have hm := hZ.measurable
  have hi := hZ.independent
  have hd := hZ.map_eq
  have hZm : Measurable fun ω i => Z i ω := measurable_pi_lambda _ hm
  have hRm : Measurable fun ω => X.result 0 fun i => Z i ω := (X.measurable_result 0).comp hZm
  have hch := X.chance_eq hm hi hd hall
  refine ⟨P.map (fun ω => X.result 0 fun i => Z i ω), Measure.isProbabilityMeasure_map hRm.aemeasurable, ?_, ?_⟩
  · intro As
    have h1 := X.results_prob hm hi hd As
    rw [show X.chance P Z = _ from funext hch] at h1
    rw [← h1]
    congr 1
    ext ω
    exact (results_iff hp hf hsp hs As _).symm
  · have h1 : ∀ᵐ ω ∂P, ∀ n, (fun i => Z i ω) ∈ X.results (List.replicate n Set.univ) := ae_all_iff.2 (X.results_certain hm hi hd hall)
    have h2 : ∀ᵐ ω ∂P, ∀ x : Int, Tendsto (fun n : ℕ => (((List.range n).countP fun j => decide (X.result j (fun i => Z i ω) ∈ Set.Iic x) : ℕ) : ℝ) / n)
        atTop (𝓝 (X.chance P Z (Set.Iic x)).toReal) := ae_all_iff.2 fun x => X.results_frequency hm hi hd hall _
    filter_upwards [h1, h2] with ω h1 h2
    refine ⟨fun j => X.result j fun i => Z i ω, fun n => ?_, fun x => ?_⟩
    · have h3 := (X.mem_results (As := (List.range n).map fun j => {X.result j fun i => Z i ω}) (ζ := fun i => Z i ω)
        (by simpa using h1 n)).2 (by simp)
      obtain ⟨N, vs, rest, h4, h5⟩ := (results_iff hp hf hsp hs _ _).1 h3
      have hvs : vs = (List.range n).map fun j => X.result j fun i => Z i ω := by
        apply List.ext_getElem
        · simpa using h5.length_eq
        · intro k hk hk'
          have := List.Forall₂.get h5 hk (by simpa using hk')
          simpa using this
      rw [hvs] at h4
      exact ⟨N, rest, h4⟩
    · rw [← hch]
      exact h2 x

end
end Angonoka.Props
