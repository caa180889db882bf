import Verif.Proof.HistogramOp
import Verif.Props.Histogram
import Verif.Props.Params

/-!
# C48, C49, C54: simulation runs and the histogram of them
-/

set_option linter.unusedSectionVars false

namespace Angonoka.Props
open Angonoka Outcome Stun

variable {K : Type} [Field K] [LinearOrder K] [IsStrictOrderedRing K] [FloorRing K]

theorem sampled_wellFormed {sp : ScheduleParams K} (hw : WellFormed sp) {perf dur : List K}
    (hpl : perf.length = sp.agentCount) (hdl : dur.length = sp.taskCount)
    (hp : ∀ x ∈ perf, 0 < x) (hd : ∀ x ∈ dur, 0 < x) : WellFormed (sp.sampled perf dur) := by
  have ht : (sp.sampled perf dur).taskCount = sp.taskCount := hdl
  have ha : (sp.sampled perf dur).agentCount = sp.agentCount := hpl
  exact {
    tasks_pos := by rw [ht]; exact hw.tasks_pos
    deps_size := by rw [ht]; exact hw.deps_size
    avail_size := by rw [ht]; exact hw.avail_size
    deps_lt := by rw [ht]; exact hw.deps_lt
    deps_sorted := by rw [ht]; exact hw.deps_sorted
    acyclic := by
      have : (sp.sampled perf dur).Needs = sp.Needs := by
        funext t d
        unfold ScheduleParams.Needs
        rw [ht]
        rfl
      rw [this]
      exact hw.acyclic
    avail_ne := by rw [ht]; exact hw.avail_ne
    avail_lt := by rw [ht, ha]; exact hw.avail_lt
    perf_pos := hp
    dur_nonneg := fun x hx => (hd x hx).le }

/-- C48. A run of a simulation of a sound project, for a valid schedule and any random numbers, either needs more
random numbers, or returns the whole part of the end of an execution of the schedule with the sampled
performances and durations, all of which are positive. The execution is the fastest one. -/
theorem simulation_feasible {E : FloatEnv K} {p : Project} (hp : p.Sound) (hf : p.FloatsIn E)
    {sp : ScheduleParams K} (hsp : toScheduleParams E p = ok sp) {s : List Item}
    (hs : ValidSchedule sp s) {sim : Simulation K} (hsim : SimulationFor E p sim) :
    ∃ bounds, p.performanceBounds bounds ∧ ∀ zs,
      (sim.call E s zs = ok none ∧ ∀ perf dur zs' rest, Samples E bounds perf zs zs' →
        ¬ Samples E (p.durationBounds E) dur zs' rest) ∨
      ∃ v perf dur zs' rest sim' end_, sim.call E s zs = ok (some (v, rest, sim')) ∧
        Samples E bounds perf zs zs' ∧ Samples E (p.durationBounds E) dur zs' rest ∧
        (∀ x ∈ perf, 0 < x) ∧ (∀ x ∈ dur, 0 < x) ∧
        (0 ≤ v ∧ (v : K) ≤ end_ ∧ end_ < v + 1) ∧
        ∃ start finish,
          Execution E { sp with agentPerformance := perf, taskDuration := dur } s start finish ∧
          IsEnd s finish end_ ∧
          ∀ start' finish',
            Execution E { sp with agentPerformance := perf, taskDuration := dur } s start' finish' →
            ∀ it ∈ s, start it.task ≤ start' it.task ∧ finish it.task ≤ finish' it.task := by
  obtain ⟨sp', hsp', hw⟩ := params_wellFormed (E := E) hp hf
  rw [hsp] at hsp'
  cases hsp'
  obtain ⟨h1, h2, h3, h4, h5, h6⟩ := params_faithful hp.agent_groups hp.task_groups hsp
  obtain ⟨bounds, hb, hall⟩ := simCall_ok (E := E) (sp := sp) (s := s) hsim.shape hp.performance
    hp.durations (fun i t hi => (h5 i t hi).2.2) hp.deps_lt (hs.length.trans h1)
    (fun it hit => by
      have := hs.fits hw hit
      rw [h1, h2] at this
      exact ⟨this.task_n, this.agent_m⟩)
  refine ⟨bounds, hb, fun zs => ?_⟩
  rcases hall zs with h | ⟨perf, dur, zs', rest, sim', s1, s2, hc⟩
  · exact Or.inl h
  · right
    have lp : perf.length = p.agents.length := s1.length.trans hb.length_eq.symm
    have ld : dur.length = p.tasks.length := s2.length.trans (by simp [Project.durationBounds])
    have hbpos : ∀ b ∈ bounds, 0 < b.1 := by
      intro b hb'
      obtain ⟨i, hi, rfl⟩ := List.getElem_of_mem hb'
      obtain ⟨lo, hi', hok, he⟩ := List.Forall₂.get hb (by rw [hb.length_eq]; exact hi) hi
      rw [List.get_eq_getElem] at he
      rw [he]
      dsimp only
      exact_mod_cast hok.2.2.1
    have pp := s1.pos hbpos
    have dp : ∀ x ∈ dur, 0 < x := s2.pos (by
      intro b hb
      obtain ⟨t, ht, rfl⟩ := List.mem_map.1 hb
      exact ofInt_pos (hp.durations t ht).1)
    have hw' := sampled_wellFormed hw (lp.trans h2.symm) (ld.trans h1.symm) pp dp
    have hs' : ValidSchedule (sp.sampled perf dur) s := by
      refine ⟨?_, hs.ordered, hs.eligible⟩
      have : (sp.sampled perf dur).taskCount = sp.taskCount := ld.trans h1.symm
      rw [this]
      exact hs.complete
    obtain ⟨start, finish, hex, hend, _, hleast⟩ := makespanValue_spec (E := E) hw' hs'
    have hac : (sp.sampled perf dur).agentCount = p.agents.length := lp
    rw [hac] at hend
    generalize hv : makespanValue E (sp.sampled perf dur) p.agents.length s = v at hc hend
    have h0 : 0 ≤ v := by
      obtain ⟨it, hit, hfin⟩ := hend.2
      rw [← hfin, hex.time it hit]
      exact E.rnd_nonneg (add_nonneg (hex.nonneg it hit)
        (itemTime_nonneg it hw'.perf_pos hw'.dur_nonneg))
    refine ⟨_, perf, dur, zs', rest, sim', v, hc, s1, s2, pp, dp, ?_, start, finish, hex, hend, hleast⟩
    unfold Simulation.truncate
    rw [if_pos h0]
    exact ⟨Int.floor_nonneg.2 h0, Int.floor_le v, Int.lt_floor_add_one v⟩

/-- C48: what the bounds mean. In exact arithmetic the lower bound is drawn at two standard deviations below the
mean, the upper one at two above. -/
theorem drawn_bounds {E : FloatEnv K} (hE : E.IsExact) (lo hi : K) :
    drawn E lo hi (-2) = lo ∧ drawn E lo hi 0 = (lo + hi) / 2 ∧ drawn E lo hi 2 = hi := by
  unfold drawn
  simp only [FloatEnv.add, FloatEnv.mul, FloatEnv.div, FloatEnv.sub, hE _]
  refine ⟨?_, ?_, ?_⟩ <;> ring

/-- C49. Two simulations of the same project, whatever they were used for before, give the same result and
consume the same random numbers, for every schedule, valid or not. -/
theorem simulation_history_free {E : FloatEnv K} {p : Project} {a b : Simulation K}
    (ha : SimulationFor E p a) (hb : SimulationFor E p b) (s : List Item) (zs : List K) :
    a.call E s zs = b.call E s zs :=
  ha.shape.call_eq hb.shape s zs

/-- C49. Every simulation can be copied and given any project with agents and tasks; a new one can be made of
any such project. -/
theorem simulation_reusable {E : FloatEnv K} {p : Project} {a : Simulation K} (ha : SimulationFor E p a) :
    (∃ b, a.copy = ok b ∧ SimulationFor E p b) ∧
      ∀ q : Project, q.agents ≠ [] → q.tasks ≠ [] →
        (∃ b, a.setParams q = ok b ∧ SimulationFor E q b) ∧
          ∃ b : Simulation K, Simulation.new q = ok b ∧ SimulationFor E q b := by
  have hs := ha.shape
  have key : ∀ (q : Project) (l : List K), q.agents ≠ [] → q.tasks ≠ [] →
      ∃ b, Simulation.assignBuffers q l = ok b := by
    intro q l h1 h2
    unfold Simulation.assignBuffers
    rw [expects_true (by simpa using h1), ok_bind, expects_true (by simpa using h2), ok_bind]
    exact ⟨_, rfl⟩
  refine ⟨?_, fun q h1 h2 => ⟨?_, ?_⟩⟩
  · obtain ⟨b, hb⟩ := key a.config a.buffer (hs.config ▸ hs.agents_ne) (hs.config ▸ hs.tasks_ne)
    have hb' : SimShape p b := assignBuffers_ok (hs.config ▸ hb)
    have hc : a.copy = ok b := by
      unfold Simulation.copy
      have h0 : a.buffer ≠ [] := by
        intro h0
        have h := hs.size
        rw [h0] at h
        have := List.length_pos_iff.2 hs.agents_ne
        simp at h
        omega
      rw [expects_true (by simpa using h0), ok_bind, hb, ok_bind,
        expects_true (by simp [hs.size, hb'.size]), ok_bind]
      rfl
    exact ⟨b, hc, .copy ha hc⟩
  · obtain ⟨b, hb⟩ := key q a.buffer h1 h2
    have hc : a.setParams q = ok b := by
      unfold Simulation.setParams
      have e1 : a.config.agents ≠ [] := hs.config ▸ hs.agents_ne
      have e2 : a.config.tasks ≠ [] := hs.config ▸ hs.tasks_ne
      rw [expects_true (by simpa using e1), ok_bind, expects_true (by simpa using e2), ok_bind, hb]
    exact ⟨b, hc, .setParams ha hc⟩
  · obtain ⟨b, hb⟩ := key q [] h1 h2
    have hc : Simulation.new q = ok b := by
      unfold Simulation.new
      rw [expects_true (by simpa using h1), ok_bind, expects_true (by simpa using h2), ok_bind, hb]
    exact ⟨b, hc, .new hc⟩

theorem Samples.unique {E : FloatEnv K} {bs : List (K × K)} {xs xs' zs rest rest' : List K}
    (h : Samples E bs xs zs rest) (h' : Samples E bs xs' zs rest') : xs = xs' ∧ rest = rest' := by
  have h1 := pureSamples_eq_some.2 h
  rw [pureSamples_eq_some.2 h'] at h1
  cases h1
  exact ⟨rfl, rfl⟩

/-- C49. A run depends on no random numbers but those it consumes. -/
theorem simulation_local {E : FloatEnv K} {p : Project} (hp : p.Sound) (hf : p.FloatsIn E)
    {sp : ScheduleParams K} (hsp : toScheduleParams E p = ok sp) {s : List Item}
    (hs : ValidSchedule sp s) {sim : Simulation K} (hsim : SimulationFor E p sim) {zs rest : List K}
    {v : Int} {sim' : Simulation K} (hc : sim.call E s zs = ok (some (v, rest, sim'))) :
    ∃ used, zs = used ++ rest ∧
      ∀ rest', ∃ sim'', sim.call E s (used ++ rest') = ok (some (v, rest', sim'')) := by
  obtain ⟨sp', hsp', hw⟩ := params_wellFormed (E := E) hp hf
  rw [hsp] at hsp'
  cases hsp'
  obtain ⟨h1, h2, h3, h4, h5, h6⟩ := params_faithful hp.agent_groups hp.task_groups hsp
  obtain ⟨bounds, hb, hall⟩ := simCall_ok (E := E) (sp := sp) (s := s) hsim.shape hp.performance
    hp.durations (fun i t hi => (h5 i t hi).2.2) hp.deps_lt (hs.length.trans h1)
    (fun it hit => by
      have := hs.fits hw hit
      rw [h1, h2] at this
      exact ⟨this.task_n, this.agent_m⟩)
  rcases hall zs with h | ⟨perf, dur, zs', rest1, sim1, s1, s2, hc1⟩
  · rw [hc] at h
    cases h.1
  · rw [hc] at hc1
    cases hc1
    obtain ⟨u1, rfl, l1⟩ := s1.local
    obtain ⟨u2, rfl, l2⟩ := s2.local
    refine ⟨u1 ++ u2, by simp, fun rest' => ?_⟩
    rcases hall (u1 ++ u2 ++ rest') with h | ⟨perf', dur', zs1, rest2, sim2, t1, t2, hc2⟩
    · rw [List.append_assoc] at h
      exact absurd (l2 rest') (h.2 _ _ _ _ (l1 _))
    · rw [List.append_assoc] at t1
      obtain ⟨rfl, rfl⟩ := Samples.unique t1 (l1 _)
      obtain ⟨rfl, rfl⟩ := Samples.unique t2 (l2 _)
      exact ⟨sim2, hc2⟩

/-- C49. If no bounds differ, every run gives the same result, whatever the random numbers, and uses
none of them. -/
theorem simulation_deterministic {E : FloatEnv K} {p : Project} (hp : p.Sound) (hf : p.FloatsIn E)
    {sp : ScheduleParams K} (hsp : toScheduleParams E p = ok sp) {s : List Item}
    (hs : ValidSchedule sp s) (hperf : ∀ a ∈ p.agents, a.perfMin = a.perfMax)
    (hdur : ∀ t ∈ p.tasks, t.durMin = t.durMax) :
    ∃ v, ∀ sim, SimulationFor E p sim → ∀ zs, ∃ sim', sim.call E s zs = ok (some (v, zs, sim')) := by
  obtain ⟨sp', hsp', hw⟩ := params_wellFormed (E := E) hp hf
  rw [hsp] at hsp'
  cases hsp'
  obtain ⟨h1, h2, h3, h4, h5, h6⟩ := params_faithful hp.agent_groups hp.task_groups hsp
  obtain ⟨bounds, _, hb⟩ := performanceBounds_ok (K := K) hp.performance
  have hbf : ∀ b ∈ bounds, b.1 = b.2 := by
    intro b hb'
    obtain ⟨i, hi, rfl⟩ := List.getElem_of_mem hb'
    have hi' : i < p.agents.length := by rw [hb.length_eq]; exact hi
    obtain ⟨lo, hi', hok, he⟩ := List.Forall₂.get hb hi' hi
    rw [List.get_eq_getElem] at he
    have := hperf _ (List.getElem_mem (by assumption) : p.agents[i] ∈ p.agents)
    have h7 := hok.1
    have h8 := hok.2.1
    rw [List.get_eq_getElem] at h7 h8
    rw [h7, h8] at this
    injection this with this
    rw [he, this]
  have hdf : ∀ b ∈ p.durationBounds E, b.1 = b.2 := by
    intro b hb'
    obtain ⟨t, ht, rfl⟩ := List.mem_map.1 hb'
    simp [hdur t ht]
  refine ⟨Simulation.truncate (makespanValue E (sp.sampled (bounds.map Prod.fst)
    ((p.durationBounds E).map Prod.fst)) p.agents.length s), fun sim hsim zs => ?_⟩
  obtain ⟨bounds', hb', hall⟩ := simCall_ok (E := E) (sp := sp) (s := s) hsim.shape hp.performance
    hp.durations (fun i t hi => (h5 i t hi).2.2) hp.deps_lt (hs.length.trans h1)
    (fun it hit => by
      have := hs.fits hw hit
      rw [h1, h2] at this
      exact ⟨this.task_n, this.agent_m⟩)
  have hbb : bounds' = bounds := by
    apply List.ext_getElem
    · rw [← hb.length_eq, ← hb'.length_eq]
    · intro i g1 g2
      have hi' : i < p.agents.length := by rw [hb.length_eq]; exact g2
      obtain ⟨lo, hi, hok, he⟩ := List.Forall₂.get hb hi' g2
      obtain ⟨lo', hi'', hok', he'⟩ := List.Forall₂.get hb' hi' g1
      rw [List.get_eq_getElem] at he he'
      have e1 := hok.1.symm.trans hok'.1
      have e2 := hok.2.1.symm.trans hok'.2.1
      injection e1 with e1
      injection e2 with e2
      rw [he, he', e1, e2]
  subst hbb
  rcases hall zs with h | ⟨perf, dur, zs', rest, sim', s1, s2, hc⟩
  · exact absurd (samples_fixed hdf zs) (h.2 _ _ _ _ (samples_fixed hbf zs))
  · obtain ⟨rfl, rfl⟩ := Samples.unique s1 (samples_fixed hbf zs)
    obtain ⟨rfl, rfl⟩ := Samples.unique s2 (samples_fixed hdf _)
    exact ⟨sim', hc⟩

/-! ### C54 -/

theorem contents_adds (acc vs : List Int) :
    HistogramUse.contents acc (vs.map .add) = acc ++ vs := by
  induction vs generalizing acc with
  | nil => simp [HistogramUse.contents]
  | cons v vs ih => simp [HistogramUse.contents, ih]

theorem opInv_init {E : FloatEnv K} {p : Project} {s : List Item} {w : Int} {sim : Simulation K}
    {hist : Histogram} {zs : List K} (h1 : Simulation.new p = ok sim)
    (h2 : Histogram.new w = ok hist) :
    OpInv E p s w zs { sim := sim, hist := hist, zs := zs, log := [] } where
  sim := .new h1
  hist := by rw [h2]; rfl
  nonneg := by simp
  runs := .nil

theorem _root_.Angonoka.OpInv.histogramOf {E : FloatEnv K} {p : Project} {s : List Item} {w : Int}
    {zs₀ : List K} {op : HistogramOp K} (hw : 1 ≤ w) (h : OpInv E p s w zs₀ op) : HistogramOf w op.log op.hist := by
  refine ⟨hw, op.log.map .add, ?_, ?_, h.hist⟩
  · intro v hv
    obtain ⟨x, hx, he⟩ := List.mem_map.1 hv
    cases he
    exact h.nonneg _ hx
  · simpa using contents_adds [] op.log

/-- C54. Whatever the stopping rule: the histogram that is returned is that of the results of `10000 * k` successive runs,
with the chosen resolution, and its counts add up to this number. The rule was asked after every 10000 runs, with all results
so far, and `k` is the first time it said to stop. -/
theorem histogram_batches {E : FloatEnv K} {p : Project} {binSize : Option Int} {s : List Item}
    {makespan : Int} {more : List Int → Outcome Bool} {fuel : Nat} {zs : List K} {h : Histogram}
    (hh : histogram E p binSize s makespan more fuel zs = ok (some h)) :
    ∃ w vs bins rest, ∃ k ≥ 1, vs.length = 10000 * k ∧ Runs E p s vs zs rest ∧
      (∀ j ≥ 1, j ≤ k → more (vs.take (10000 * j)) = ok (decide (j < k))) ∧
      parseGranularity binSize makespan = ok w ∧ HistogramOf w vs h ∧
      h.toList = ok bins ∧ (bins.map Bin.count).sum = (10000 * k : Nat) := by
  unfold histogram at hh
  obtain ⟨_, _, hh⟩ := bind_eq_ok.1 hh
  obtain ⟨_, _, hh⟩ := bind_eq_ok.1 hh
  obtain ⟨_, _, hh⟩ := bind_eq_ok.1 hh
  obtain ⟨sim, h1, hh⟩ := bind_eq_ok.1 hh
  obtain ⟨w, h2, hh⟩ := bind_eq_ok.1 hh
  obtain ⟨hist, h3, hh⟩ := bind_eq_ok.1 hh
  have hw : 1 ≤ w := by
    unfold Histogram.new at h3
    obtain ⟨_, h4, _⟩ := bind_eq_ok.1 h3
    simpa using expects_eq_ok.1 h4
  unfold HistogramOp.call at hh
  obtain ⟨r, h4, hh⟩ := bind_eq_ok.1 hh
  match r, h4, hh with
  | none, _, hh => cases hh
  | some op, h4, hh =>
    dsimp only at hh
    obtain ⟨r, h5, hh⟩ := bind_eq_ok.1 hh
    match r, h5, hh with
    | none, _, hh => cases hh
    | some op', h5, hh =>
      dsimp only at hh
      obtain ⟨_, _, hh⟩ := bind_eq_ok.1 hh
      cases hh
      obtain ⟨i1, l1, _⟩ := (opInv_init (E := E) (s := s) (zs := zs) h1 h3).runBatch h4
      obtain ⟨i2, _, k, l2, l3⟩ := i1.loop h5
      have hof := i2.histogramOf hw
      have hl : op'.log.length = 10000 * (k + 1) := by
        rw [l2, l1]
        simp
        omega
      refine ⟨w, op'.log, _, _, k + 1, by omega, hl, i2.runs, ?_, h2, hof, hof.inv.2.toList hw, ?_⟩
      · intro j h1 hj
        obtain ⟨j, rfl⟩ : ∃ i, j = i + 1 := ⟨j - 1, by omega⟩
        have := l3 j (by omega)
        rw [l1] at this
        simp only [List.length_nil, Nat.zero_add] at this
        rw [show 10000 * (j + 1) = 10000 + 10000 * j by omega, this]
        simp
      rw [(hof.inv.2.describes hw).total hw, hl]

/-- C54: for a sound project and a valid schedule of at least a second, building the histogram violates no
contract, as long as the stopping rule does not, for results of runs. -/
theorem histogram_safe {E : FloatEnv K} {p : Project} (hp : p.Sound) (hf : p.FloatsIn E)
    {sp : ScheduleParams K} (hsp : toScheduleParams E p = ok sp) {s : List Item}
    (hs : ValidSchedule sp s) {binSize : Option Int} (hb : ∀ b ∈ binSize, 1 ≤ b) {makespan : Int}
    (hm : 1 ≤ makespan) {more : List Int → Outcome Bool}
    (fuel : Nat) {zs : List K} (hmore : RuleAnswers E p s more zs) :
    ∃ r, histogram E p binSize s makespan more fuel zs = ok r := by
  have hsafe : SafeRuns E p s := by
    intro sim zs hsim
    obtain ⟨bounds, _, hall⟩ := simulation_feasible hp hf hsp hs hsim
    rcases hall zs with h | ⟨v, _, _, _, _, _, _, hc, _, _, _, _, hv, _⟩
    · exact ⟨_, h.1, by simp⟩
    · refine ⟨_, hc, ?_⟩
      intro v' zs' sim' he
      cases he
      exact hv.1
  have hsne : s ≠ [] := by
    intro h0
    have h1 := hs.length
    have h2 := (params_faithful hp.agent_groups hp.task_groups hsp).1
    rw [h0, h2] at h1
    exact hp.tasks_ne (List.eq_nil_of_length_eq_zero h1.symm)
  obtain ⟨w, hw, hpg⟩ : ∃ w, 1 ≤ w ∧ parseGranularity binSize makespan = ok w := by
    obtain ⟨r1, r2⟩ := resolution hm
    cases binSize with
    | none =>
      refine ⟨_, ?_, r1⟩
      split_ifs <;> omega
    | some b => exact ⟨b, hb b rfl, r2 b⟩
  obtain ⟨sim, hnew⟩ : ∃ sim : Simulation K, Simulation.new p = ok sim := by
    unfold Simulation.new Simulation.assignBuffers
    rw [expects_true (by simpa using hp.agents_ne), ok_bind,
      expects_true (by simpa using hp.tasks_ne), ok_bind,
      expects_true (by simpa using hp.agents_ne), ok_bind,
      expects_true (by simpa using hp.tasks_ne), ok_bind]
    exact ⟨_, rfl⟩
  obtain ⟨hist, hh⟩ : ∃ hist, Histogram.new w = ok hist := by
    unfold Histogram.new
    rw [expects_true (by simpa using hw), ok_bind]
    exact ⟨_, rfl⟩
  unfold histogram
  rw [expects_true (by simpa using hp.tasks_ne), ok_bind,
    expects_true (by simpa using hp.agents_ne), ok_bind, expects_true (by simpa using hsne), ok_bind,
    hnew, ok_bind, hpg, ok_bind, hh, ok_bind]
  unfold HistogramOp.call
  have hinit := opInv_init (E := E) (s := s) (zs := zs) hnew hh
  obtain ⟨r, h4⟩ := hinit.runBatch_safe hw hsne hsafe
  rw [h4, ok_bind]
  cases r with
  | none => exact ⟨_, rfl⟩
  | some op =>
    dsimp only
    obtain ⟨i1, l1, _⟩ := hinit.runBatch h4
    obtain ⟨r, h5⟩ := i1.loop_safe hw hsne hsafe hmore (fuel := fuel) (k := 1) le_rfl (by simpa using l1)
    rw [h5, ok_bind]
    cases r with
    | none => exact ⟨_, rfl⟩
    | some op' =>
      dsimp only
      obtain ⟨i2, _, k, l2, _⟩ := i1.loop h5
      have hne : Histogram.binsOf w op'.hist ≠ [] := (i2.histogramOf hw).ne_nil (by
        intro h0
        rw [h0] at l2
        simp at l1 l2
        omega)
      have : 0 < op'.hist.size := by
        unfold Histogram.size
        rw [List.length_pos_iff]
        intro h0
        exact hne (by simp [Histogram.binsOf, h0])
      rw [expects_true (by simpa using this), ok_bind]
      exact ⟨_, rfl⟩

/-! ### Examples -/

/-- The schedule in which the first agent does everything in the example project. -/
def examplePlan : List Item := [⟨0, 0⟩, ⟨1, 0⟩]

theorem examplePlan_valid : ∃ sp, toScheduleParams FloatEnv.rat exampleProject = ok sp ∧
    ValidSchedule sp examplePlan := by
  let sp : ScheduleParams ℚ :=
    { agentPerformance := [2, 1], taskDuration := [3/2, 1/2],
      availableAgents := Vector2D.ofSizes [0, 0, 1] [1, 2],
      dependencies := Vector2D.ofSizes [0] [0, 1], durationMultiplier := 10 }
  exact ⟨sp, by decide +kernel, validSchedule_of_check (by decide) (by decide) (by decide)⟩

/-- A run of the example project. Only the first agent's performance (1 to 3) and the first task's duration (10
to 21 seconds) are sampled. The first random number is rejected; the second gives a performance of 2, the third a
duration of 21 seconds. The first task ends after 10.5 seconds, the second after 13. -/
example : ∃ sim : Simulation ℚ, Simulation.new exampleProject = ok sim ∧
    (sim.call FloatEnv.rat examplePlan [-5, 0, 2, 7] >>= fun r => ok (r.map fun r => (r.1, r.2.1)))
      = ok (some (13, [7])) :=
  ⟨_, rfl, by decide +kernel⟩

/-- A simulation of the example project can be given a project with fewer tasks. -/
example : ∃ a b : Simulation ℚ, Simulation.new exampleProject = ok a ∧
    a.setParams { exampleProject with tasks := [{ name := "s", durMin := 10, durMax := 21 }] } = ok b ∧
    b.buffer.length = 6 := by
  refine ⟨_, _, rfl, rfl, by decide⟩

end Angonoka.Props
