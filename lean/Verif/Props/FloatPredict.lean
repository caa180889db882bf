import Verif.Proof.FloatStats
import Verif.Props.FloatCommand
import Verif.Props.PredictCommand

/-!
# C76: the prediction in single precision
-/

set_option linter.unusedSectionVars false

namespace Angonoka.Props
open Angonoka Outcome Stun Cli

variable {K : Type} [Field K] [LinearOrder K] [IsStrictOrderedRing K] [FloorRing K]
variable {E : FloatEnv K} {m : Machine K} {o : Cli.Options K}

/-- C76, the percentiles. The program runs the simulation in batches of 10000. As long as the number of runs is at most 2²⁴, single precision
makes no difference: at least 25, 50, 75, 95 and 99 percent of the runs lie in the bin of the percentile or below it. -/
theorem percentiles_float (hE : E.IsFloat) {w : Int} {vs : List Int} {h : Histogram} {k : Nat}
    (hh : HistogramOf w vs h) (hk : 1 ≤ k) (hlen : vs.length = 10000 * k) (hn : vs.length ≤ 2 ^ 24) :
    ∃ s bins, stats E h = ok s ∧ h.toList = ok bins ∧ s.Conservative K vs bins := by
  have hvs : vs ≠ [] := by
    rintro rfl
    simp at hlen
    omega
  obtain ⟨s, bins, h1, h2, h3⟩ := percentiles_conservative hh hvs (E := E) (hE.countsExact (by exact_mod_cast hn))
  refine ⟨s, bins, h1, h2, fun q x hx => ?_⟩
  obtain ⟨b, hb, hx', hq⟩ := h3 q x hx
  refine ⟨b, hb, hx', ?_⟩
  have hn' : vs.length < 2 ^ 24 := by omega
  have hl : (vs.length : K) = 10000 * k := by exact_mod_cast hlen
  simp only [HistogramStats.percentiles, List.mem_cons, Prod.mk.injEq, List.not_mem_nil, or_false] at hx
  rcases hx with ⟨rfl, _⟩ | ⟨rfl, _⟩ | ⟨rfl, _⟩ | ⟨rfl, _⟩ | ⟨rfl, _⟩
  · exact hE.threshold (N := 2500 * k) (by norm_num) (by norm_num) hn' (by rw [hl]; push_cast; ring) hq
  · exact hE.threshold (N := 5000 * k) (by norm_num) (by norm_num) hn' (by rw [hl]; push_cast; ring) hq
  · exact hE.threshold (N := 7500 * k) (by norm_num) (by norm_num) hn' (by rw [hl]; push_cast; ring) hq
  · exact hE.threshold (N := 9500 * k) (by norm_num) (by norm_num) hn' (by rw [hl]; push_cast; ring) hq
  · exact hE.threshold (N := 9900 * k) (by norm_num) (by norm_num) hn' (by rw [hl]; push_cast; ring) hq

/-- The same parameters with and without rounding: the ends of the earliest executions differ by a relative error of at most 2⁻¹⁴. -/
theorem execution_rounding (hE : E.IsFloat) {q : ScheduleParams K} (hw : WellFormed q) {s : List Item} (hs : ValidSchedule q s)
    (hlen : s.length ≤ 127) (hlo : ∀ a ∈ q.agentPerformance, ∀ d ∈ q.taskDuration, 1 / 2 ^ 126 ≤ d / a)
    {start finish start₀ finish₀ : Nat → K} (hx : Earliest E q s start finish) (hx₀ : Earliest E.unrounded q s start₀ finish₀)
    {v V : K} (hv : IsEnd s finish v) (hV : IsEnd s finish₀ V) : Within (1 / 2 ^ 14) v V := by
  have hA := accurate_float hE
  have hE₀ := unrounded_exact E
  have hz : ∀ i : Nat, Near (1 + 1 / 2 ^ 23 : K) 1 0 0 := fun _ => ⟨le_rfl, le_rfl, by simp, by simp⟩
  have htime : ∀ it ∈ s, Near (1 + 1 / 2 ^ 23 : K) 1 (q.itemTime E it) (q.itemTime E.unrounded it) ∧
      1 / 2 ^ 126 ≤ q.itemTime E it := by
    intro it hit
    obtain ⟨a1, a2⟩ : it.task < q.taskCount ∧ it.agent < q.agentCount := ⟨(hs.fits hw hit).task_n, (hs.fits hw hit).agent_m⟩
    have ha := List.getElem_mem (l := q.agentPerformance) a2
    have hd := List.getElem_mem (l := q.taskDuration) a1
    have hq := hlo _ ha _ hd
    have hp := hw.perf_pos _ ha
    have hdn := hw.dur_nonneg _ hd
    have hg : ∀ F : FloatEnv K, q.itemTime F it = F.rnd (q.taskDuration[it.task] / q.agentPerformance[it.agent]) := by
      intro F
      unfold ScheduleParams.itemTime FloatEnv.div
      rw [List.getD_eq_getElem _ _ a1, List.getD_eq_getElem _ _ a2]
    rw [hg, hg, hE₀]
    exact ⟨Near.rnd hA (Near.refl hA.one_le (div_nonneg hdn hp.le)) hq, hA.le_rnd hq⟩
  obtain ⟨st, st₀, r1, r2, _, hF, _⟩ := near_run (E := E) (E₀ := E.unrounded) (start := fun _ => 0) (f := fun _ => 0)
    (w := fun _ => 0) (start₀ := fun _ => 0) (f₀ := fun _ => 0) (w₀ := fun _ => 0) hA hE₀
    (p := q) (p₀ := q) (fun _ => rfl) hw.perf_pos hw.dur_nonneg
    hw.perf_pos hw.dur_nonneg (runInv_nil E _) (runInv_nil _ _) hs.runnable htime le_rfl hz hz hz
  rw [List.nil_append] at r1 r2
  have hk : (1 + 1 / 2 ^ 23 : K) ^ (1 + s.length) ≤ 1 + 1 / 2 ^ 14 := pow_float_le (by omega)
  have hfin : ∀ it ∈ s, Near (1 + 1 / 2 ^ 23 : K) (1 + s.length) (finish it.task) (finish₀ it.task) := by
    intro it hit
    have e2 := le_antisymm (hx.2 _ _ r1.exec it hit).2 (r1.least _ _ hx.1 it hit).2
    have e4 := le_antisymm (hx₀.2 _ _ r2.exec it hit).2 (r2.least _ _ hx₀.1 it hit).2
    rw [e2, e4]
    exact hF _
  obtain ⟨i1, m1, rfl⟩ := hv.2
  obtain ⟨i2, m2, rfl⟩ := hV.2
  have hc0 : (0 : K) ≤ (1 + 1 / 2 ^ 23 : K) ^ (1 + s.length) := by positivity
  refine Near.within (c := 1 + 1 / 2 ^ 23) (k := 1 + s.length) ⟨(hfin i1 m1).left, (hfin i2 m2).right, ?_, ?_⟩ hA.one_le hk
  · exact (hfin i1 m1).le.trans (mul_le_mul_of_nonneg_left (hV.1 i1 m1) hc0)
  · exact (hfin i2 m2).ge.trans (mul_le_mul_of_nonneg_left (hv.1 i2 m2) hc0)

/-- C76, a run of the simulation. In single precision, a run for a valid schedule with at most 127 tasks gives the time at which the last task
ends if the sampled durations and performances are executed exactly, up to a relative error of 2⁻¹⁴ and one second, provided that the
samples are not extreme. -/
theorem simulation_rounding (hE : E.IsFloat) {p : Project} (hp : p.Sound) (hf : p.FloatsIn E) (hn : p.tasks.length ≤ 127)
    {sp : ScheduleParams K} (hsp : toScheduleParams E p = ok sp) {s : List Item} (hs : ValidSchedule sp s)
    {sim sim' : Simulation K} (hsim : SimulationFor E p sim) {zs rest : List K} {v : Int}
    (hc : sim.call E s zs = ok (some (v, rest, sim'))) :
    ∃ bounds perf dur zs', p.performanceBounds bounds ∧ Samples E bounds perf zs zs' ∧
      Samples E (p.durationBounds E) dur zs' rest ∧
      ((∀ x ∈ perf, 1 / 2 ^ 40 ≤ x ∧ x ≤ 2 ^ 40) → (∀ x ∈ dur, 1 / 2 ^ 62 ≤ x ∧ x ≤ 2 ^ 62) →
        ∀ start finish V, Earliest E.unrounded { sp with agentPerformance := perf, taskDuration := dur } s start finish →
          IsEnd s finish V → CloseTo v V) := by
  obtain ⟨sp', hsp', hw⟩ := params_wellFormed (E := E) hp hf
  rw [hsp] at hsp'
  cases hsp'
  obtain ⟨t1, t2, _⟩ := params_faithful hp.agent_groups hp.task_groups hsp
  obtain ⟨bounds, hb, hall⟩ := simulation_feasible hp hf hsp hs hsim
  rcases hall zs with ⟨h, _⟩ | ⟨v', perf, dur, zs', rest', sim'', e, h, s1, s2, pp, dp, ⟨v0, v1, v2⟩, st, fi, hex, hend, hleast⟩
  · rw [hc] at h
    cases h
  · rw [hc] at h
    cases h
    refine ⟨bounds, perf, dur, zs', hb, s1, s2, ?_⟩
    intro hperf hdur start finish V hx hV
    have lp : perf.length = p.agents.length := s1.length.trans hb.length_eq.symm
    have ld : dur.length = p.tasks.length := s2.length.trans (by simp [Project.durationBounds])
    have hw' := sampled_wellFormed hw (lp.trans t2.symm) (ld.trans t1.symm) pp dp
    have hs' : ValidSchedule (sp.sampled perf dur) s := by
      refine ⟨?_, hs.ordered, hs.eligible⟩
      have : (sp.sampled perf dur).taskCount = sp.taskCount := ld.trans t1.symm
      rw [this]
      exact hs.complete
    refine closeTo_of ⟨v1, v2⟩ (execution_rounding hE hw' hs' (by rw [hs.length, t1]; exact hn) ?_ ⟨hex, hleast⟩ hx hend hV)
    intro a ha d hd
    have ha' := hperf a ha
    have hd' := hdur d hd
    have ha0 := pp a ha
    rw [le_div_iff₀ ha0]
    calc (1 / 2 ^ 126 : K) * a ≤ 1 / 2 ^ 126 * 2 ^ 40 := by gcongr; exact ha'.2
      _ ≤ 1 / 2 ^ 62 := by norm_num
      _ ≤ d := hd'.1

/-- C76. The program without a command, from the document to the output file, in single precision. Let the document load into a sound project
without extreme numbers, that takes at least two and less than 2³⁰ seconds, let the options be valid and let the stopping rule not
fail. Then the optimizer finds a schedule, whatever the random numbers are; and the simulation either has not ended yet,
with no output file, or it has run `10000 * k` times until the stopping rule was satisfied. In this case, if all results fit an `int` and there are at most
2²⁴ of them, the program has printed the percentiles and written the output file once, with the histogram of exactly these results and the
percentiles of this histogram, and with the names and priorities of the schedule; starts, durations and makespan are those of the fastest exact execution of the schedule, up to a
relative error of 2⁻¹⁴ and one second. -/
theorem float_predict_command (hE : E.IsFloat) (hf : o.filename ≠ "") (hout : o.output ≠ "")
    {root : Yaml} {p : Project} (hs : m.source = .doc root) (hl : load m.readFloat root = ok p)
    (hp : p.Sound) (hr : p.InRange) (hfl : p.FloatsIn E) (hmod : p.TakesBetween 2 (2 ^ 30)) (hw : CanWrite m o)
    (ht : 0 < m.threads) {sp sp₀ : ScheduleParams K} (hsp : toScheduleParams E p = ok sp)
    (hsp₀ : toScheduleParams E.unrounded p = ok sp₀)
    (ho : ValidOptions E (o.opt.options sp)) (hbin : ∀ b ∈ o.binSize, 1 ≤ b ∧ b < 2 ^ 31) :
    ∃ (N : Nat) (s : List Item) (mk : Int) (es : List TaskEntry) (start start₀ finish₀ : Nat → K) (V : K),
      ValidSchedule sp s ∧ es.length = s.length ∧
      Earliest E.unrounded (p.secondsParams E.unrounded sp₀) s start₀ finish₀ ∧ IsEnd s finish₀ V ∧ CloseTo mk V ∧
      (∀ (i : Nat) (it : Item) (e : TaskEntry), s[i]? = some it → es[i]? = some e →
        e.Correct E p (p.secondsParams E sp) s start i it ∧ CloseTo e.start (start₀ it.task) ∧
        CloseTo e.duration ((p.secondsParams E.unrounded sp₀).itemTime E.unrounded it) ∧
        ((e.start + e.duration : Int) : K) ≤ mk + 2 * (V / 2 ^ 14) + 1) ∧
      ∀ fuel, N ≤ fuel → ∀ fuel' zs, RuleAnswers E p s m.more zs → ∀ result, result = body E { m with fuel := fuel, fuel' := fuel', zs := zs } .predict o →
        (status result.flow = .running ∧ (∀ e ∈ result.effects, ¬ e.IsFile) ∧
          histogram E p o.binSize s mk m.more fuel' zs = ok none) ∨
        ∃ (vs : List Int) (rest : List K) (k : Nat) (bins : List Bin),
          1 ≤ k ∧ vs.length = 10000 * k ∧ Runs E p s vs zs rest ∧
          (∀ j ≥ 1, j ≤ k → m.more (vs.take (10000 * j)) = ok (decide (j < k))) ∧
          Describes (resolutionOf o.binSize mk) vs bins ∧
          (vs.length ≤ 2 ^ 24 → ∃ st : HistogramStats, st.Conservative K vs bins ∧
          ((∀ v ∈ vs, v < 2 ^ 31) → status result.flow = .exit 0 ∧
            ∃ pre post : List (Effect K), (∀ e ∈ pre ++ post, ¬ e.IsFile) ∧
              (o.quiet = false → .stdout (estimation st) ∈ pre) ∧
              result.effects = pre ++ [.file o.output (.obj [
                ("histogram", .obj [("bin_size", .int (resolutionOf o.binSize mk)),
                  ("bins", .arr (bins.map fun b => .arr [.int b.low, .int b.count]))]),
                ("makespan", .int mk),
                ("stats", st.object),
                ("tasks", .arr (es.map TaskEntry.object))])] ++ post)) := by
  have hE₀ := unrounded_exact E
  obtain ⟨hws₀, hc₀⟩ := secondsParams_wellFormed hp (fun _ _ _ _ => rfl) hsp₀
  obtain ⟨N, s, mk, es, hvs, ⟨start, start₀, finish₀, V, h1, h2, h3, h4, h5⟩, h⟩ := predict_command_core hf hout hs hl hp hfl hw ht
    hsp ho hbin (P := fun s mk es => ∃ (start start₀ finish₀ : Nat → K) (V : K), es.length = s.length ∧
      Earliest E.unrounded (p.secondsParams E.unrounded sp₀) s start₀ finish₀ ∧ IsEnd s finish₀ V ∧ CloseTo mk V ∧
      (∀ (i : Nat) (it : Item) (e : TaskEntry), s[i]? = some it → es[i]? = some e →
        e.Correct E p (p.secondsParams E sp) s start i it ∧ CloseTo e.start (start₀ it.task) ∧
        CloseTo e.duration ((p.secondsParams E.unrounded sp₀).itemTime E.unrounded it) ∧
        ((e.start + e.duration : Int) : K) ≤ mk + 2 * (V / 2 ^ 14) + 1)) (Few := fun n => n ≤ 2 ^ 24)
    (fun s v hs hv => by
      have hs₀ := unrounded_valid hsp hsp₀ hs
      obtain ⟨st, fi, hex, hend, _, hleast⟩ := makespanValue_spec (E := E.unrounded) hws₀ (secondsParams_valid hc₀ hs₀)
      obtain ⟨⟨a, b, hab, hlt⟩, hge⟩ := bounded_executions hE₀ hp (by norm_num) (by norm_num) hmod hsp₀ hs₀
      obtain ⟨it, hit, h2⟩ := hge st fi hex
      have hV := h2.trans (hend.1 it hit)
      obtain ⟨it', hit', he'⟩ := hend.2
      have hV' := lt_of_le_of_lt (hleast a b hab it' hit').2 (hlt it' hit')
      rw [he'] at hV'
      push_cast at hV hV'
      obtain ⟨mk, es, start, finish, hm, hj, hlen, hmk, _, hcor⟩ := float_json hE hp hr hfl hsp hsp₀ hs hv ⟨hex, hleast⟩ hend hV hV'
      refine ⟨mk, es, hm, hj, ?_, start, st, fi, _, hlen, ⟨hex, hleast⟩, hend, hmk, hcor⟩
      have h0 : (0 : K) < mk := by
        unfold CloseTo at hmk
        rw [abs_le] at hmk
        have := hmk.1
        linarith
      have : 0 < mk := by exact_mod_cast h0
      omega)
    (fun w vs h k hh hk hlen hn => percentiles_float hE hh hk hlen hn)
  refine ⟨N, s, mk, es, start, start₀, finish₀, V, hvs, h1, h2, h3, h4, h5, ?_⟩
  intro fuel hN fuel' zs hans result hresult
  rcases h fuel hN fuel' zs hans result hresult with h | ⟨vs, rest, k, bins, h1, h2, h3, h4, h5, h6⟩
  · exact Or.inl h
  · refine Or.inr ⟨vs, rest, k, bins, h1, h2, h3, h4, h5, fun hn => ?_⟩
    obtain ⟨st, h7, h8⟩ := h6 hn
    exact ⟨st, h7, fun hv => h8 hv (lt_of_le_of_lt hn (by norm_num))⟩

/-- The histogram of any nonnegative values exists. -/
theorem histogramOf_exists {w : Int} (hw : 1 ≤ w) {vs : List Int} (hvs : ∀ v ∈ vs, 0 ≤ v) : ∃ h, HistogramOf w vs h := by
  suffices h : ∃ h, (Histogram.new w >>= fun h => h.run (vs.map .add)) = ok h by
    obtain ⟨h, hh⟩ := h
    refine ⟨h, hw, vs.map .add, ?_, by simpa using contents_adds [] vs, hh⟩
    intro v hv
    obtain ⟨x, hx, he⟩ := List.mem_map.1 hv
    cases he
    exact hvs _ hx
  induction vs using List.reverseRecOn with
  | nil =>
    unfold Histogram.new
    rw [expects_true (by simpa using hw), ok_bind]
    exact ⟨_, rfl⟩
  | append_singleton vs v ih =>
    obtain ⟨h, hh⟩ := ih fun x hx => hvs x (by simp [hx])
    obtain ⟨h', hi⟩ := insert_exists hw hh (hvs v (by simp))
    refine ⟨h', ?_⟩
    obtain ⟨h0, e1, e2⟩ := bind_eq_ok.1 hh
    rw [e1, ok_bind]
    rw [List.map_append, run_append, e2, ok_bind]
    show (h.insert v >>= fun h => ok h) = ok h'
    rw [hi]
    rfl

/-- `percentiles_float` applies to ten thousand runs. -/
example : ∃ h s bins, HistogramOf 60 ((List.range 10000).map fun i : Nat => (i : Int)) h ∧ stats ratFloat h = ok s ∧
    s.Conservative ℚ ((List.range 10000).map fun i : Nat => (i : Int)) bins := by
  obtain ⟨h, hh⟩ := histogramOf_exists (w := 60) (by norm_num) (vs := (List.range 10000).map fun i : Nat => (i : Int)) (by
    intro v hv
    obtain ⟨i, _, rfl⟩ := List.mem_map.1 hv
    omega)
  have hl : ((List.range 10000).map fun i : Nat => (i : Int)).length = 10000 * 1 := by rw [List.length_map, List.length_range]
  obtain ⟨s, bins, h1, _, h2⟩ := percentiles_float ratFloat_isFloat hh le_rfl hl (by rw [hl]; norm_num)
  exact ⟨h, s, bins, hh, h1, h2⟩

/-- C76 applies to the example document `plan`. -/
example (draws : Nat → Nat → Nat → Draws ℚ) : ∃ N, ∀ fuel, N ≤ fuel → ∀ fuel' zs,
    ∃ result, result = body ratFloat { exampleMachine draws with
      fuel := fuel, fuel' := fuel', zs := zs } .predict cliOptions ∧
    (status result.flow = .running ∨ ∃ vs : List Int, vs.length = 10000 ∧ ((∀ v ∈ vs, v < 2 ^ 31) → status result.flow = .exit 0)) := by
  obtain ⟨sp, hsp, hw⟩ := params_wellFormed (E := ratFloat) plan_sound plan_floats
  obtain ⟨sp₀, hsp₀, _⟩ := params_wellFormed (E := ratFloat.unrounded) plan_sound (fun _ _ _ _ => rfl)
  obtain ⟨N, _, _, _, _, _, _, _, _, _, _, _, _, _, h⟩ := float_predict_command (m := exampleMachine draws) ratFloat_isFloat
    (by decide) (by decide) rfl Sample.plan_loads plan_sound plan_inRange plan_floats plan_takes example_canWrite (by exact (by decide : 0 < 4))
    hsp hsp₀ (cliOptions_valid_float hw) (by intro b hb; cases hb)
  refine ⟨N, fun fuel hN fuel' zs => ⟨_, rfl, ?_⟩⟩
  rcases h fuel hN fuel' zs (fun _ _ _ _ _ _ => ⟨_, rfl⟩) _ rfl with ⟨h, _, _⟩ | ⟨vs, _, k, _, hk, hl, _, hdec, _, hst⟩
  · exact .inl h
  · have : k = 1 := by
      have := (Outcome.ok.injEq ..).mp (hdec 1 le_rfl hk)
      have : ¬ 1 < k := by simpa using this.symm
      omega
    subst this
    obtain ⟨st, _, h⟩ := hst (by rw [hl]; norm_num)
    exact .inr ⟨vs, by rw [hl], fun hv => (h hv).1⟩

/-- `simulation_rounding` applies to a run of the example project. The sampled performances are 2 and 1, the durations 21 and 5 seconds. -/
example : ∃ (sim sim' : Simulation ℚ) (v : Int), SimulationFor ratFloat exampleProject sim ∧
    sim.call ratFloat examplePlan [-5, 0, 2, 7] = ok (some (v, [7], sim')) ∧ ∃ sp, toScheduleParams ratFloat exampleProject = ok sp ∧
    ∀ start finish V, Earliest ratFloat.unrounded { sp with agentPerformance := [2, 1], taskDuration := [21, 5] } examplePlan start finish →
      IsEnd examplePlan finish V → CloseTo v V := by
  have hf : exampleProject.FloatsIn ratFloat := by
    intro a ha x hx
    simp only [exampleProject, List.mem_cons, List.not_mem_nil, or_false] at ha
    rcases ha with rfl | rfl <;> rcases hx with hx | hx <;> cases hx <;> decide +kernel
  let sp : ScheduleParams ℚ :=
    { agentPerformance := [2, 1], taskDuration := [3/2, 1/2],
      availableAgents := Vector2D.ofSizes [0, 0, 1] [1, 2],
      dependencies := Vector2D.ofSizes [0] [0, 1], durationMultiplier := 10 }
  have hsp : toScheduleParams ratFloat exampleProject = ok sp := by decide +kernel
  have hs : ValidSchedule sp examplePlan := validSchedule_of_check (by decide) (by decide) (by decide)
  have hrun : ∃ (sim sim' : Simulation ℚ) (v : Int), Simulation.new exampleProject = ok sim ∧
      sim.call ratFloat examplePlan [-5, 0, 2, 7] = ok (some (v, [7], sim')) := by
    have hc : ∃ sim : Simulation ℚ, Simulation.new exampleProject = ok sim ∧
        (sim.call ratFloat examplePlan [-5, 0, 2, 7] >>= fun r => ok (r.map fun r => (r.1, r.2.1))) = ok (some (13, [7])) :=
      ⟨_, rfl, by decide +kernel⟩
    obtain ⟨sim, h1, h2⟩ := hc
    obtain ⟨r, h3, h4⟩ := bind_eq_ok.1 h2
    match r, h3, h4 with
    | none, _, h4 => cases h4
    | some (v, rest, sim'), h3, h4 =>
      cases h4
      exact ⟨sim, sim', _, h1, h3⟩
  obtain ⟨sim, sim', v, h1, h2⟩ := hrun
  refine ⟨sim, sim', v, .new h1, h2, sp, hsp, ?_⟩
  obtain ⟨bounds, perf, dur, zs', h3, h4, h5, h6⟩ := simulation_rounding ratFloat_isFloat exampleProject_sound hf (by decide) hsp hs (.new h1) h2
  have hb : bounds = [(1, 3), (1, 1)] := by
    cases h3 with
    | cons a1 h3 =>
      cases h3 with
      | cons a2 h3 =>
        cases h3
        obtain ⟨_, _, ⟨b1, b2, _⟩, rfl⟩ := a1
        obtain ⟨_, _, ⟨b3, b4, _⟩, rfl⟩ := a2
        cases b1
        cases b2
        cases b3
        cases b4
        decide +kernel
  subst hb
  have c1 : Samples ratFloat [((1 : ℚ), 3), (1, 1)] [2, 1] [-5, 0, 2, 7] [2, 7] := by
    have := Samples.drawn (E := ratFloat) (lo := 1) (hi := 3) (bounds := [((1 : ℚ), 1)]) (z := 0) (xs := [1]) (zs := [2, 7]) (rest := [2, 7])
      [-5] (by decide) (by decide +kernel) (by decide +kernel) (.fixed .nil)
    rwa [show drawn ratFloat 1 3 0 = 2 by decide +kernel] at this
  have c2 : Samples ratFloat (exampleProject.durationBounds ratFloat) [21, 5] [2, 7] [7] := by
    rw [show exampleProject.durationBounds ratFloat = [((10 : ℚ), 21), (5, 5)] by decide +kernel]
    have := Samples.drawn (E := ratFloat) (lo := 10) (hi := 21) (bounds := [((5 : ℚ), 5)]) (z := 2) (xs := [5]) (zs := [7]) (rest := [7])
      [] (by decide) (by simp) (by decide +kernel) (.fixed .nil)
    rwa [show drawn ratFloat 10 21 2 = 21 by decide +kernel] at this
  obtain ⟨rfl, rfl⟩ := Samples.unique c1 h4
  obtain ⟨rfl, _⟩ := Samples.unique c2 h5
  exact h6 (by decide +kernel) (by decide +kernel)

end Angonoka.Props
