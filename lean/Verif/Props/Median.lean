import Mathlib.Probability.Distributions.Gaussian.Real
import Verif.Proof.Mirror
import Verif.Props.DocumentedRun

/-!
# C99: the makespan is optimistic

At least half of the simulated runs take at least as long as the makespan says, if the random numbers are symmetric.
-/

set_option linter.unusedSectionVars false

namespace Angonoka.Props
open Outcome Stun MeasureTheory ProbabilityTheory

/-- A stream of random numbers that are independent, and each as likely to be in a set as in the mirrored set. Standard normal
numbers are such. -/
structure SymmetricNumbers {Ω : Type} [MeasurableSpace Ω] (P : Measure Ω) (Z : Nat → Ω → ℝ) : Prop where
  measurable : ∀ i, Measurable (Z i)
  independent : iIndepFun Z P
  symmetric : ∀ (i : Nat) (A : Set ℝ), MeasurableSet A → P {ω | -Z i ω ∈ A} = P {ω | Z i ω ∈ A}

theorem SymmetricNumbers.map_neg {Ω : Type} [MeasurableSpace Ω] {P : Measure Ω} {Z : Nat → Ω → ℝ} (h : SymmetricNumbers P Z) (i : Nat) :
    (P.map (Z i)).map (fun x => -x) = P.map (Z i) := by
  ext A hA
  rw [Measure.map_apply measurable_neg hA, Measure.map_apply (h.measurable i) (measurable_neg hA), Measure.map_apply (h.measurable i) hA]
  exact h.symmetric i A hA

theorem samples_append {E : FloatEnv ℝ} {b₁ b₂ : List (ℝ × ℝ)} {xs zs rest : List ℝ} (h : Samples E (b₁ ++ b₂) xs zs rest) :
    ∃ x₁ x₂ mid, xs = x₁ ++ x₂ ∧ Samples E b₁ x₁ zs mid ∧ Samples E b₂ x₂ mid rest := by
  induction b₁ generalizing xs zs with
  | nil => exact ⟨[], xs, zs, rfl, .nil, h⟩
  | cons b b₁ ih =>
    cases h with
    | fixed h =>
      obtain ⟨x₁, x₂, mid, rfl, h1, h2⟩ := ih h
      exact ⟨_ :: x₁, x₂, mid, rfl, .fixed h1, h2⟩
    | drawn rej hne hr hz h =>
      obtain ⟨x₁, x₂, mid, rfl, h1, h2⟩ := ih h
      exact ⟨_ :: x₁, x₂, mid, rfl, .drawn rej hne hr hz h1, h2⟩

theorem performanceBounds_pos {p : Project} {bounds : List (ℝ × ℝ)} (hb : p.performanceBounds bounds) {b : ℝ × ℝ} (h : b ∈ bounds) :
    0 < b.1 ∧ b.1 ≤ b.2 := by
  obtain ⟨i, hi, rfl⟩ := List.getElem_of_mem h
  obtain ⟨lo, hi', hok, he⟩ := List.Forall₂.get hb (by rw [hb.length_eq]; exact hi) hi
  rw [List.get_eq_getElem] at he
  rw [he]
  dsimp only
  exact ⟨by exact_mod_cast hok.2.2.1, by exact_mod_cast hok.2.2.2⟩

theorem durationBounds_pos {E : FloatEnv ℝ} {p : Project} (hp : p.Sound) {b : ℝ × ℝ} (h : b ∈ p.durationBounds E) :
    0 < b.1 ∧ b.1 ≤ b.2 := by
  obtain ⟨t, ht, rfl⟩ := List.mem_map.1 h
  have := hp.durations t ht
  exact ⟨ofInt_pos this.1, E.rnd_mono (by exact_mod_cast this.2.1)⟩

theorem simulation_exists (p : Project) (E : FloatEnv ℝ) (hp : p.Sound) : ∃ sim : Simulation ℝ, SimulationFor E p sim := by
  obtain ⟨sim, hnew⟩ : ∃ sim : Simulation ℝ, Simulation.new p = ok sim := by
    unfold Simulation.new Simulation.assignBuffers
    rw [expects_true (by simpa using hp.agents_ne), ok_bind,
      expects_true (by simpa using hp.tasks_ne), ok_bind,
      expects_true (by simpa using hp.agents_ne), ok_bind,
      expects_true (by simpa using hp.tasks_ne), ok_bind]
    exact ⟨_, rfl⟩
  exact ⟨sim, .new hnew⟩

/-- The performance bounds of a sound project. -/
theorem performanceBounds_unique {p : Project} {bs bs' : List (ℝ × ℝ)} (h : p.performanceBounds bs) (h' : p.performanceBounds bs') : bs = bs' := by
  apply List.ext_getElem
  · rw [← h.length_eq, ← h'.length_eq]
  · intro i h1 h2
    obtain ⟨lo, hi, hok, he⟩ := List.Forall₂.get h (by rw [h.length_eq]; exact h1) h1
    obtain ⟨lo', hi', hok', he'⟩ := List.Forall₂.get h' (by rw [h'.length_eq]; exact h2) h2
    rw [List.get_eq_getElem] at he he'
    have e1 := hok.1.symm.trans hok'.1
    have e2 := hok.2.1.symm.trans hok'.2.1
    injection e1 with e1
    injection e2 with e2
    rw [he, he', e1, e2]

section
variable {E : FloatEnv ℝ} {p : Project} {sp : ScheduleParams ℝ} {s : List Item}

/-- A run with given samples. -/
theorem call_of_samples (hp : p.Sound) (hf : p.FloatsIn E) (hsp : toScheduleParams E p = ok sp) (hs : ValidSchedule sp s)
    {sim : Simulation ℝ} (hsim : SimulationFor E p sim) {bounds : List (ℝ × ℝ)} (hb : p.performanceBounds bounds) {perf dur zs mid rest : List ℝ}
    (h1 : Samples E bounds perf zs mid) (h2 : Samples E (p.durationBounds E) dur mid rest) :
    ∃ sim', sim.call E s zs = ok (some (Simulation.truncate (makespanValue E (sp.sampled perf dur) p.agents.length s), rest, sim')) := by
  obtain ⟨sp', hsp', hw⟩ := params_wellFormed (E := E) hp hf
  rw [hsp] at hsp'
  cases hsp'
  obtain ⟨g1, g2, g3, g4, g5, g6⟩ := params_faithful hp.agent_groups hp.task_groups hsp
  obtain ⟨bounds', hb', hall⟩ := simCall_ok (E := E) (sp := sp) (s := s) hsim.shape hp.performance
    hp.durations (fun i t hi => (g5 i t hi).2.2) hp.deps_lt (hs.length.trans g1)
    (fun it hit => by
      have := hs.fits hw hit
      rw [g1, g2] at this
      exact ⟨this.task_n, this.agent_m⟩)
  cases performanceBounds_unique hb hb'
  rcases hall zs with h | ⟨perf', dur', zs', rest', sim', s1, s2, hc⟩
  · exact absurd h2 (h.2 _ _ _ _ h1)
  · obtain ⟨rfl, rfl⟩ := Samples.unique h1 s1
    obtain ⟨rfl, rfl⟩ := Samples.unique h2 s2
    exact ⟨sim', hc⟩

/-- Successive runs with given samples. -/
theorem runs_of_samples (hp : p.Sound) (hf : p.FloatsIn E) (hsp : toScheduleParams E p = ok sp) (hs : ValidSchedule sp s)
    {bounds : List (ℝ × ℝ)} (hb : p.performanceBounds bounds) (j : Nat) {xs zs rest : List ℝ}
    (h : Samples E (List.replicate j (bounds ++ p.durationBounds E)).flatten xs zs rest) :
    ∃ vs, vs.length = j ∧ Runs E p s vs zs rest := by
  obtain ⟨sim, hsim⟩ := simulation_exists p E hp
  induction j generalizing xs rest with
  | zero =>
    cases h
    exact ⟨[], rfl, .nil⟩
  | succ j ih =>
    rw [List.replicate_succ', List.flatten_append] at h
    simp only [List.flatten_cons, List.flatten_nil, List.append_nil] at h
    obtain ⟨x₁, x₂, mid, rfl, h1, h2⟩ := samples_append h
    obtain ⟨perf, dur, mid', rfl, h3, h4⟩ := samples_append h2
    obtain ⟨vs, hl, hr⟩ := ih h1
    obtain ⟨sim', hc⟩ := call_of_samples hp hf hsp hs hsim hb h3 h4
    exact ⟨vs ++ [_], by simp [hl], .snoc hr hsim hc⟩

variable {Ω : Type} [MeasurableSpace Ω] {P : Measure Ω} [IsProbabilityMeasure P] {Z : Nat → Ω → ℝ}

theorem getD_drop (l : List ℝ) (n i : Nat) : (l.drop n).getD i 0 = l.getD (n + i) 0 := by
  simp [List.getD_eq_getElem?_getD]

theorem half_core (hE : E.IsExact) (hp : p.Sound) (hsp : toScheduleParams E p = ok sp) (hs : ValidSchedule sp s) (hZ : SymmetricNumbers P Z)
    {bounds : List (ℝ × ℝ)} (hb : p.performanceBounds bounds) (j : Nat) :
    1 / 2 ≤ P {ω | ∃ N vs perf dur zs mid, vs.length = j ∧ Runs E p s vs ((List.range N).map fun i => Z i ω) zs ∧
      Samples E bounds perf zs mid ∧ Samples E (p.durationBounds E) dur mid [] ∧
      makespanValue E (sp.sampled perf (p.tasks.map fun t => E.ofInt t.meanDuration)) p.agents.length s ≤
        makespanValue E (sp.sampled perf dur) p.agents.length s} := by
  have hf : p.FloatsIn E := fun _ _ _ _ => hE _
  set pre := (List.replicate j (bounds ++ p.durationBounds E)).flatten with hpre
  set avg := p.tasks.map fun t => E.ofInt t.meanDuration with havg
  let bs : Marked := (pre ++ bounds).map (fun b => (false, b)) ++ (p.durationBounds E).map (fun b => (true, b))
  have hsnd : bs.map Prod.snd = pre ++ (bounds ++ p.durationBounds E) := by
    simp [bs, List.map_map, Function.comp_def]
  have hbs : ∀ b ∈ bs, 0 < b.2.1 ∧ b.2.1 ≤ b.2.2 := by
    have : ∀ b ∈ bs.map Prod.snd, 0 < b.1 ∧ b.1 ≤ b.2 := by
      rw [hsnd]
      intro b hb'
      rcases List.mem_append.1 hb' with h | h
      · obtain ⟨l, hl, hbl⟩ := List.mem_flatten.1 h
        rw [List.eq_of_mem_replicate hl] at hbl
        rcases List.mem_append.1 hbl with h | h
        · exact performanceBounds_pos hb h
        · exact durationBounds_pos hp h
      · rcases List.mem_append.1 h with h | h
        · exact performanceBounds_pos hb h
        · exact durationBounds_pos hp h
    exact fun b hb' => this b.2 (List.mem_map_of_mem hb')
  let perfOf : List ℝ → List ℝ := fun xs => (xs.drop pre.length).take bounds.length
  let durOf : List ℝ → List ℝ := fun xs => xs.drop (pre.length + bounds.length)
  let good : List ℝ → Prop := fun xs => makespanValue E (sp.sampled (perfOf xs) avg) p.agents.length s ≤
    makespanValue E (sp.sampled (perfOf xs) (durOf xs)) p.agents.length s
  have hperfget : ∀ (xs : List ℝ) (i : Nat), (perfOf xs).getD i 0 = if i < bounds.length then xs.getD (pre.length + i) 0 else 0 := by
    intro xs i
    simp only [perfOf, List.getD_eq_getElem?_getD, List.getElem?_take]
    split_ifs <;> simp
  have key := half_chance hZ.measurable hZ.independent hZ.map_neg hE hbs (good := good) ?_ ?_
  · refine key.trans (measure_mono ?_)
    rintro ω ⟨ks, hr, hg⟩
    have hsam := hr.samples []
    rw [List.append_nil, hsnd] at hsam
    obtain ⟨x₁, x₂, mid, hx, h1, h2⟩ := samples_append hsam
    obtain ⟨perf, dur, mid', rfl, h3, h4⟩ := samples_append h2
    obtain ⟨vs, hl, hruns⟩ := runs_of_samples hp hf hsp hs hb j h1
    refine ⟨_, vs, perf, dur, mid, mid', hl, hruns, h3, h4, ?_⟩
    have e1 : perfOf (x₁ ++ (perf ++ dur)) = perf := by
      simp only [perfOf]
      rw [← h1.length, List.drop_left, ← h3.length, List.take_left]
    have e2 : durOf (x₁ ++ (perf ++ dur)) = dur := by
      simp only [durOf]
      rw [← h1.length, ← h3.length, ← List.append_assoc, ← List.length_append, List.drop_left]
    have hg' : good (x₁ ++ (perf ++ dur)) := hx ▸ hg
    simp only [good, e1, e2] at hg'
    exact hg'
  · intro ks
    have hm := measurable_vals (E := E) bs ks
    have hmp : ∀ i, Measurable fun ζ : ℕ → ℝ => (perfOf (vals E bs ks ζ)).getD i 0 := by
      intro i
      simp only [hperfget]
      split_ifs
      · exact hm _
      · exact measurable_const
    refine measurableSet_le (measurable_makespanValue sp hmp (fun _ => measurable_const) _ _)
      (measurable_makespanValue sp hmp (fun i => ?_) _ _)
    simp only [durOf, getD_drop]
    exact hm _
  · intro ks ζ hr hng
    have hv := fun {i b} (h : bs[i]? = some b) => Reads.vals_mirrored hE hbs hr h
    have hperf : perfOf (vals E bs ks (mirrored E bs ks ζ)) = perfOf (vals E bs ks ζ) := by
      have hlen : ∀ ζ, Reads E bs ks ζ → (perfOf (vals E bs ks ζ)).length = bounds.length := by
        intro ζ h
        simp only [perfOf, List.length_take, List.length_drop, vals_length h, bs, List.length_append, List.length_map]
        omega
      apply List.ext_getElem
      · rw [hlen _ hr, hlen _ hr.mirrored]
      · intro i h1 h2
        rw [hlen _ hr] at h2
        have e : ∀ (l : List ℝ) (h : i < l.length), l[i] = l.getD i 0 := fun l h => by simp [h]
        rw [e, e, hperfget, hperfget, if_pos h2, if_pos h2]
        have hb' : bs[pre.length + i]? = some (false, bounds[i]) := by
          simp only [bs]
          rw [List.getElem?_append_left (by simp; omega), List.getElem?_map, List.getElem?_append_right (by omega)]
          simp [h2]
        exact (hv hb').1 rfl
    have hpos : ∀ x ∈ perfOf (vals E bs ks ζ), 0 < x := by
      have := (hr.samples []).pos (by
        intro b hb'
        obtain ⟨b', hb'', rfl⟩ := List.mem_map.1 hb'
        exact (hbs b' hb'').1)
      intro x hx
      exact this x (List.mem_of_mem_drop (List.mem_of_mem_take hx))
    have hhalf := makespanValue_half hE sp hpos (s := s) (dur := durOf (vals E bs ks ζ)) (dur' := durOf (vals E bs ks (mirrored E bs ks ζ)))
      (avg := avg) ?_ p.agents.length
    · simp only [good] at hng ⊢
      rw [hperf]
      linarith [not_le.1 hng]
    · intro it hit
      have ht : it.task < p.tasks.length := by
        have := hs.task_lt hit
        rwa [(params_faithful hp.agent_groups hp.task_groups hsp).1] at this
      have hb' : bs[pre.length + bounds.length + it.task]? =
          some (true, E.ofInt p.tasks[it.task].durMin, E.ofInt p.tasks[it.task].durMax) := by
        simp only [bs]
        rw [List.getElem?_append_right (by simp), List.getElem?_map]
        simp [Project.durationBounds, ht]
      have := (hv hb').2 rfl
      simp only [durOf, getD_drop]
      refine le_trans ?_ this
      simp only [havg, FloatEnv.ofInt, hE _]
      have hmean : 2 * p.tasks[it.task].meanDuration ≤ p.tasks[it.task].durMin + p.tasks[it.task].durMax := by
        unfold Task.meanDuration
        have h := hp.durations _ (List.getElem_mem ht)
        have := h.1
        have := h.2.1
        omega
      simp only [List.getD_eq_getElem?_getD, List.getElem?_map, List.getElem?_eq_getElem ht, Option.map_some, Option.getD_some]
      exact_mod_cast hmean

/-- Without spread the sampled performances are the mean ones. -/
theorem certain_performance (hp : p.Sound) (hf : p.FloatsIn E) (hsp : toScheduleParams E p = ok sp)
    (hperf : ∀ a ∈ p.agents, a.perfMin = a.perfMax) {bounds : List (ℝ × ℝ)} (hb : p.performanceBounds bounds) {perf zs rest : List ℝ}
    (h : Samples E bounds perf zs rest) : perf = sp.agentPerformance := by
  have hbf : ∀ b ∈ bounds, b.1 = b.2 := by
    intro b hb'
    obtain ⟨i, hi, rfl⟩ := List.getElem_of_mem hb'
    have hi' : i < p.agents.length := by rw [hb.length_eq]; exact hi
    obtain ⟨lo, hi', hok, he⟩ := List.Forall₂.get hb hi' hi
    rw [List.get_eq_getElem] at he
    have := hperf _ (List.getElem_mem (by assumption) : p.agents[i] ∈ p.agents)
    have h7 := hok.1
    have h8 := hok.2.1
    rw [List.get_eq_getElem] at h7 h8
    rw [h7, h8] at this
    injection this with this
    rw [he, this]
  obtain ⟨rfl, -⟩ := Samples.unique h (samples_fixed hbf zs)
  have hpl := (params_faithful hp.agent_groups hp.task_groups hsp).2.1
  apply List.ext_getElem
  · rw [List.length_map, ← hb.length_eq]
    exact hpl.symm
  · intro i h1 h2
    rw [List.length_map] at h1
    have hi' : i < p.agents.length := by rw [hb.length_eq]; exact h1
    obtain ⟨lo, hi, hok, he⟩ := List.Forall₂.get hb hi' h1
    rw [List.get_eq_getElem] at he hok
    obtain ⟨x, hx, hx1, hx2⟩ := params_performance_between hsp hf (List.getElem?_eq_getElem hi') hok
    have heq := hperf _ (List.getElem_mem hi')
    rw [hok.1, hok.2.1] at heq
    injection heq with heq
    rw [List.getElem_map, he]
    rw [List.getElem?_eq_getElem h2] at hx
    have hx' := Option.some.inj hx
    rw [hx']
    rw [← heq] at hx2
    exact le_antisymm hx1 hx2

/-- The value of the recurrence for given speeds and the mean durations is the end of the earliest execution. -/
theorem mean_makespan (hE : E.IsExact) (hp : p.Sound) (hsp : toScheduleParams E p = ok sp) (hs : ValidSchedule sp s) {perf : List ℝ}
    (hl : perf.length = p.agents.length) (hpos : ∀ x ∈ perf, 0 < x) :
    ∃ start finish, Earliest E { p.secondsParams E sp with agentPerformance := perf } s start finish ∧
      IsEnd s finish (makespanValue E (sp.sampled perf (p.tasks.map fun t => E.ofInt t.meanDuration)) p.agents.length s) := by
  obtain ⟨sp', hsp', hw⟩ := params_wellFormed (E := E) hp (fun _ _ _ _ => hE _)
  rw [hsp] at hsp'
  cases hsp'
  obtain ⟨h1, h2, -⟩ := params_faithful hp.agent_groups hp.task_groups hsp
  have hd : ∀ x ∈ p.tasks.map (fun t => E.ofInt t.meanDuration), 0 < x := by
    intro x hx
    obtain ⟨t, ht, rfl⟩ := List.mem_map.1 hx
    apply ofInt_pos
    have h := hp.durations t ht
    have := h.1
    have := h.2.1
    unfold Task.meanDuration
    omega
  have hw' := sampled_wellFormed hw (hl.trans h2.symm) ((List.length_map _).trans h1.symm : (p.tasks.map fun t => E.ofInt t.meanDuration).length = _)
    hpos hd
  have hs' : ValidSchedule (sp.sampled perf (p.tasks.map fun t => E.ofInt t.meanDuration)) s := by
    refine ⟨?_, hs.ordered, hs.eligible⟩
    have : (sp.sampled perf (p.tasks.map fun t => E.ofInt t.meanDuration)).taskCount = sp.taskCount := (List.length_map _).trans h1.symm
    rw [this]
    exact hs.complete
  obtain ⟨start, finish, hex, hend, _, hleast⟩ := makespanValue_spec (E := E) hw' hs'
  have hac : (sp.sampled perf (p.tasks.map fun t => E.ofInt t.meanDuration)).agentCount = p.agents.length := hl
  rw [hac] at hend
  exact ⟨start, finish, ⟨hex, hleast⟩, hend⟩

/-- The ends of earliest executions agree. -/
theorem earliest_end {q : ScheduleParams ℝ} {start finish start' finish' : Nat → ℝ} {V V' : ℝ} (h : Earliest E q s start finish)
    (h' : Earliest E q s start' finish') (hV : IsEnd s finish V) (hV' : IsEnd s finish' V') : V = V' := by
  obtain ⟨it, hit, h1⟩ := hV.2
  obtain ⟨it', hit', h1'⟩ := hV'.2
  apply le_antisymm
  · rw [← h1]
    exact (h.2 _ _ h'.1 it hit).2.trans (hV'.1 it hit)
  · rw [← h1']
    exact (h'.2 _ _ h.1 it' hit').2.trans (hV.1 it' hit')

/-- A run is late if its samples lead to a late end. -/
theorem late_run (hE : E.IsExact) (hp : p.Sound) (hsp : toScheduleParams E p = ok sp) (hs : ValidSchedule sp s)
    {bounds : List (ℝ × ℝ)} (hb : p.performanceBounds bounds) {perf dur zs mid : List ℝ} (h1 : Samples E bounds perf zs mid)
    (h2 : Samples E (p.durationBounds E) dur mid [])
    (hle : makespanValue E (sp.sampled perf (p.tasks.map fun t => E.ofInt t.meanDuration)) p.agents.length s ≤
        makespanValue E (sp.sampled perf dur) p.agents.length s) :
    ∃ (v : Int) (sim sim' : Simulation ℝ) (start finish : Nat → ℝ) (V : ℝ) (mk : Int),
      SimulationFor E p sim ∧ sim.call E s zs = ok (some (v, [], sim')) ∧
      Earliest E { p.secondsParams E sp with agentPerformance := perf } s start finish ∧ IsEnd s finish V ∧ IsWholePart mk V ∧ mk ≤ v := by
  obtain ⟨sim, hsim⟩ := simulation_exists p E hp
  obtain ⟨sim', hc⟩ := call_of_samples hp (fun _ _ _ _ => hE _) hsp hs hsim hb h1 h2
  have hpos : ∀ x ∈ perf, 0 < x := h1.pos fun b hb' => (performanceBounds_pos hb hb').1
  obtain ⟨start, finish, hex, hend⟩ := mean_makespan hE hp hsp hs (h1.length.trans hb.length_eq.symm) hpos
  have h0 : 0 ≤ makespanValue E (sp.sampled perf (p.tasks.map fun t => E.ofInt t.meanDuration)) p.agents.length s := by
    obtain ⟨it, hit, hfin⟩ := hend.2
    rw [← hfin, hex.1.time it hit]
    refine E.rnd_nonneg (add_nonneg (hex.1.nonneg it hit) (itemTime_nonneg it hpos ?_))
    intro x hx
    obtain ⟨t, ht, rfl⟩ := List.mem_map.1 hx
    have h := hp.durations t ht
    have := h.1
    have := h.2.1
    apply E.rnd_nonneg
    have : 0 ≤ t.meanDuration := by
      unfold Task.meanDuration
      omega
    exact_mod_cast this
  generalize makespanValue E (sp.sampled perf (p.tasks.map fun t => E.ofInt t.meanDuration)) p.agents.length s = V at hend h0 hle
  generalize makespanValue E (sp.sampled perf dur) p.agents.length s = W at hc hle
  refine ⟨_, sim, sim', start, finish, V, ⌊V⌋, hsim, hc, hex, hend, ⟨Int.floor_le _, Int.lt_floor_add_one _⟩, ?_⟩
  unfold Simulation.truncate
  rw [if_pos (h0.trans hle)]
  exact Int.floor_le_floor hle

/-- C99, with agents whose performance is uncertain. For every number `j` of earlier runs, with probability at least one half the next run ends, and takes at
least as long as the earliest execution with the performances that were sampled in this run and the mean durations. -/
theorem late_given_performance (hE : E.IsExact) (hp : p.Sound) (hsp : toScheduleParams E p = ok sp) (hs : ValidSchedule sp s)
    (hZ : SymmetricNumbers P Z) (j : Nat) :
    ∃ bounds, p.performanceBounds bounds ∧
      1 / 2 ≤ P {ω | ∃ (N : Nat) (vs : List Int) (zs mid perf : List ℝ), vs.length = j ∧ Runs E p s vs ((List.range N).map fun i => Z i ω) zs ∧
        Samples E bounds perf zs mid ∧
        ∃ (v : Int) (sim sim' : Simulation ℝ) (start finish : Nat → ℝ) (V : ℝ) (mk : Int),
          SimulationFor E p sim ∧ sim.call E s zs = ok (some (v, [], sim')) ∧
          Earliest E { p.secondsParams E sp with agentPerformance := perf } s start finish ∧ IsEnd s finish V ∧ IsWholePart mk V ∧ mk ≤ v} := by
  obtain ⟨bounds, _, hb⟩ := performanceBounds_ok (K := ℝ) hp.performance
  refine ⟨bounds, hb, (half_core hE hp hsp hs hZ hb j).trans (measure_mono ?_)⟩
  rintro ω ⟨N, vs, perf, dur, zs, mid, hl, hr, h1, h2, hle⟩
  exact ⟨N, vs, zs, mid, perf, hl, hr, h1, late_run hE hp hsp hs hb h1 h2 hle⟩

/-- C99. Let the agents' performances be certain and the random numbers symmetric. For every number `j` of earlier runs, with probability at least one half
the next run ends, and its result is at least the makespan of the schedule. -/
theorem late_runs (hE : E.IsExact) (hp : p.Sound) (hsp : toScheduleParams E p = ok sp) (hs : ValidSchedule sp s)
    (hperf : ∀ a ∈ p.agents, a.perfMin = a.perfMax) {start finish : Nat → ℝ} {V : ℝ} {mk : Int}
    (hex : Earliest E (p.secondsParams E sp) s start finish) (hend : IsEnd s finish V) (hmk : IsWholePart mk V)
    (hZ : SymmetricNumbers P Z) (j : Nat) :
    1 / 2 ≤ P {ω | ∃ (N : Nat) (vs : List Int) (v : Int), vs.length = j ∧
      Runs E p s (vs ++ [v]) ((List.range N).map fun i => Z i ω) [] ∧ mk ≤ v} := by
  obtain ⟨bounds, hb, h⟩ := late_given_performance hE hp hsp hs hZ j
  refine h.trans (measure_mono ?_)
  rintro ω ⟨N, vs, zs, mid, perf, hl, hr, h1, v, sim, sim', start', finish', V', mk', hsim, hc, hex', hend', hmk', hle⟩
  refine ⟨N, vs, v, hl, .snoc hr hsim hc, ?_⟩
  have hpp : perf = sp.agentPerformance := certain_performance hp (fun _ _ _ _ => hE _) hsp hperf hb h1
  have hq : ({ p.secondsParams E sp with agentPerformance := perf } : ScheduleParams ℝ) = p.secondsParams E sp := by
    rw [hpp]
    rfl
  rw [hq] at hex'
  have hV := earliest_end hex hex' hend hend'
  have : (mk : ℝ) < ((mk' + 1 : Int) : ℝ) := by
    push_cast
    exact lt_of_le_of_lt (hmk.1.trans hV.le) hmk'.2
  have : mk < mk' + 1 := by exact_mod_cast this
  omega

section
open Cli CommandLine Doc
variable {read : ReadReal} {isFile : String → Bool} {terminal : Bool} {a : Arguments} {o : Cli.Options ℝ} {m : Machine ℝ} {root : Yaml}

/-- C99 for the command `schedule`, from the command line and the configuration file to the output file. Let the conditions of `document_to_schedule`
hold and let no agent of the document have two different performances. Then the makespan in the output file is one that, with probability at least one half, a
random run of the timetable in the file reaches or exceeds, whatever number of random runs preceded it. -/
theorem makespan_optimistic (hE : E.IsExact) (hsig : SignsAgree read) (hnof : isFile "" = false)
    (h : parse E read isFile terminal .schedule a = .accepted o)
    (hz : ∀ t, a.restartPeriod = some t → ¬ LeadingZero t)
    (hb : ∀ t q, a.betaScale = some t → read t = some (.fin q) → ModerateBeta E q)
    (hout : a.output ≠ some "") (hd : m.source = .doc root) (hl : load m.readFloat root = ok p)
    (hs : Schedulable m.readFloat root 1 (2 ^ 31)) (hw : CanWrite m o) (ht : 0 < m.threads)
    (hperf : ∀ w ∈ agents root, ∀ slow fast, Performance m.readFloat w.2 slow fast → slow = fast) (hZ : SymmetricNumbers P Z) :
    ∃ (N : Nat) (mk : Int) (of : List Nat) (es : List TaskEntry), Doc.Timetable m.readFloat root IsWholePart of es ∧
      (∀ fuel, N ≤ fuel → status (body E { m with fuel := fuel } .schedule o).flow = .exit 0 ∧
        ∃ pre post : List (Effect ℝ), (∀ e ∈ pre ++ post, ¬ e.IsFile) ∧
          (body E { m with fuel := fuel } .schedule o).effects = pre ++ [.file (a.output.getD "schedule.json")
            (.obj [("makespan", .int mk), ("tasks", .arr (es.map TaskEntry.object))])] ++ post) ∧
      ∀ j : Nat, 1 / 2 ≤ P {ω | ∃ (n : Nat) (vs : List Int) (v : Int), vs.length = j ∧
        Simulations m.readFloat root of es ((List.range n).map fun i => Z i ω) (vs ++ [v]) ∧ mk ≤ v} := by
  obtain ⟨hp, hmod⟩ := schedulable_sound hl hs
  have hfl : p.FloatsIn E := fun _ _ _ _ => hE _
  obtain ⟨sp, hsp, hwf⟩ := params_wellFormed (E := E) hp hfl
  obtain ⟨ho, hf', hout'⟩ := accepted_options_partial (Or.inl hE) hsig hnof h hz hb hout hwf
  obtain ⟨N, s, mk, es, start, finish, V, h1, h2, h3, h4, h5, h6, h7⟩ :=
    schedule_command hE hf' hout' hd hl hp hmod hw ht hsp ho
  obtain ⟨g1, -⟩ := written_timetable hE hl hp hmod hsp h1 h2 h3 h4 h5 h6
  refine ⟨N, mk, s.map Item.task, es, g1, ?_, ?_⟩
  · have : o.output = a.output.getD "schedule.json" := by
      obtain ⟨_, _, _, _, _, _, _, _, _, _, _, _, _, _, _, rfl⟩ := parse_accepted h
      rfl
    rwa [this] at h7
  · intro j
    have hpc : ∀ a ∈ p.agents, a.perfMin = a.perfMax := by
      intro a ha
      have hll := (load_faithful hl).2
      obtain ⟨k, hk, rfl⟩ := List.mem_iff_getElem.1 ha
      have hk' := List.getElem?_eq_getElem hk
      obtain ⟨w, hw⟩ := agent_of hll hk'
      exact hperf w (List.mem_of_getElem? hw) _ _ (hll.agents_loaded k w _ hw hk').performance
    refine (late_runs hE hp hsp h1 hpc h4 h5 h6 hZ j).trans (measure_mono ?_)
    rintro ω ⟨n, vs, v, hlen, hr, hle⟩
    exact ⟨n, vs, v, hlen, simulations_of_runs hE hl hp hsp h1 h2 (fun i it e hi he => (h3 i it e hi he).1.agent) hr, hle⟩

end
end

/-! ### Example -/

/-- Independent standard normal numbers. -/
noncomputable def normals : Measure (Nat → ℝ) := Measure.infinitePi fun _ => gaussianReal 0 1

noncomputable instance : IsProbabilityMeasure normals := by
  unfold normals
  infer_instance

/-- The numbers `boost::random::normal_distribution` is meant to yield are symmetric. -/
theorem normals_symmetric : SymmetricNumbers normals (fun i ω => ω i) where
  measurable := fun i => measurable_pi_apply i
  independent := by
    have := iIndepFun_infinitePi (P := fun _ : Nat => gaussianReal 0 1) (X := fun _ => id) (fun _ => measurable_id)
    exact this
  symmetric := by
    intro i A hA
    have h1 : normals.map (fun ω => ω i) = gaussianReal 0 1 := (measurePreserving_eval_infinitePi (fun _ : Nat => gaussianReal 0 1) i).map_eq
    have e1 : {ω : Nat → ℝ | ω i ∈ A} = (fun ω => ω i) ⁻¹' A := rfl
    have e2 : {ω : Nat → ℝ | -ω i ∈ A} = (fun ω => ω i) ⁻¹' ((fun x => -x) ⁻¹' A) := rfl
    rw [e1, e2, ← Measure.map_apply (measurable_pi_apply i) (measurable_neg hA), ← Measure.map_apply (measurable_pi_apply i) hA, h1,
      ← Measure.map_apply measurable_neg hA, gaussianReal_map_neg, neg_zero]

namespace Steady

/-- Two agents, of which one is twice as fast, and three tasks with uncertain durations. -/
def plan : Yaml := Sample.obj [
  ("agents", Sample.obj [("Bob", .null), ("Jack", Sample.obj [("performance", Sample.str "2")])]),
  ("tasks", .seq [
    Sample.obj [("name", Sample.str "walls"), ("id", Sample.str "w"), ("duration", Sample.obj [("min", Sample.str "1h"), ("max", Sample.str "3h")])],
    Sample.obj [("name", Sample.str "roof"), ("duration", Sample.obj [("min", Sample.str "10 minutes"), ("max", Sample.str "1h")]), ("depends_on", Sample.str "w")],
    Sample.obj [("name", Sample.str "garden"), ("duration", Sample.obj [("min", Sample.str "10 minutes"), ("max", Sample.str "5h")])]])]

/-- What it is loaded as. -/
def project : Project where
  groups := []
  agents := [{ id := 0, name := "Bob" }, { id := 1, name := "Jack", perfMin := .fin 2, perfMax := .fin 2 }]
  tasks := [
    { name := "walls", id := "w", durMin := 3600, durMax := 10800 },
    { name := "roof", dependencies := [0], durMin := 600, durMax := 3600 },
    { name := "garden", durMin := 600, durMax := 18000 }]

theorem plan_loads : load Sample.number plan = ok project := by
  rw [Load.load_eval 20 _ _ (by decide)]
  decide +kernel

theorem plan_sound : project.Sound := by
  refine loaded_sound plan_loads (by decide) ?_ ?_
  · intro a ha
    simp only [project, List.mem_cons, List.not_mem_nil, or_false] at ha
    rcases ha with rfl | rfl <;> exact ⟨_, _, rfl, rfl⟩
  · intro t ht
    simp only [project, List.mem_cons, List.not_mem_nil, or_false] at ht
    rcases ht with rfl | rfl | rfl <;> simp [project, Eligible]

theorem plan_moderate : project.Moderate where
  longer := by
    refine ⟨_, List.mem_cons_self, ?_⟩
    intro a ha q hq
    simp only [project, List.mem_cons, List.not_mem_nil, or_false] at ha
    rcases ha with rfl | rfl <;> (cases hq; decide +kernel)
  shorter := by
    intro a ha q hq
    simp only [project, List.mem_cons, List.not_mem_nil, or_false] at ha
    rcases ha with rfl | rfl <;> (cases hq; decide +kernel)

open Cli CommandLine Doc

/-- A machine on which nothing fails, with this document. -/
def machine (draws : Nat → Nat → Nat → Draws ℝ) : Machine ℝ where
  source := .doc plan
  readFloat := Sample.number
  writable := true
  room := true
  logWritable := true
  columns := 80
  threads := 4
  draws := draws
  fuel := 0
  more := fun _ => ok false
  fuel' := 0
  zs := []

/-- C99 applies to `angonoka schedule plan.yml` with this document and standard normal numbers. -/
example (draws : Nat → Nat → Nat → Draws ℝ) : ∃ (o : Cli.Options ℝ) (N : Nat) (mk : Int) (of : List Nat) (es : List TaskEntry),
    parse FloatEnv.real exampleRead (fun f => f == "plan.yml") true .schedule { input := "plan.yml" } = .accepted o ∧
    Doc.Timetable Sample.number plan IsWholePart of es ∧
    (∀ fuel, N ≤ fuel → status (body FloatEnv.real { machine draws with fuel := fuel } .schedule o).flow = .exit 0) ∧
    ∀ j : Nat, 1 / 2 ≤ normals {ω | ∃ (n : Nat) (vs : List Int) (v : Int), vs.length = j ∧
      Simulations Sample.number plan of es ((List.range n).map fun i => ω i) (vs ++ [v]) ∧ mk ≤ v} := by
  have hpar := options_as_given (E := FloatEnv.real) (isFile := fun f => f == "plan.yml") (terminal := true) (c := .schedule)
    (a := { input := "plan.yml" }) exampleRead_naturals (by decide) (batch := 10000) (idle := 100000) (window := 100) (period := 256)
    (Or.inl ⟨rfl, rfl⟩) (Or.inl ⟨rfl, rfl⟩) (Or.inl ⟨rfl, rfl⟩) (Or.inl ⟨rfl, rfl⟩)
    (Or.inl ⟨rfl, rfl⟩) (Or.inl ⟨rfl, rfl⟩) (Or.inl ⟨rfl, rfl⟩)
  have hperf : ∀ w ∈ agents plan, ∀ slow fast, Performance Sample.number w.2 slow fast → slow = fast := by
    intro w hw slow fast hp
    obtain ⟨k, hk, rfl⟩ := List.mem_iff_getElem.1 hw
    have hl := (load_faithful plan_loads).2
    have hk' : k < project.agents.length := by rw [hl.agents_length]; exact hk
    obtain ⟨e1, e2⟩ := (document_values plan_loads).2 k _ _ slow fast (List.getElem?_eq_getElem hk) (List.getElem?_eq_getElem hk') hp
    rw [← e1, ← e2]
    exact (by decide : ∀ a ∈ project.agents, a.perfMin = a.perfMax) _ (List.getElem_mem hk')
  obtain ⟨N, mk, of, es, h1, h2, h3⟩ := makespan_optimistic (m := machine draws) (fun _ => rfl) exampleRead_signs
    (by decide) hpar (by simp) (by simp) (by simp) rfl plan_loads (sound_schedulable plan_loads plan_sound plan_moderate)
    ⟨⟨rfl, rfl⟩, fun _ => ⟨fun _ => rfl, fun _ => Or.inr (by exact (by decide : 9 ≤ 80))⟩⟩ (by exact (by decide : 0 < 4)) hperf normals_symmetric
  exact ⟨_, N, mk, of, es, hpar, h1, fun fuel hN => (h2 fuel hN).1, h3⟩

end Steady
end Angonoka.Props
