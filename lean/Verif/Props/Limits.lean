import Verif.Props.Estimate
import Verif.Props.Completes

/-!
# C106: runs outside of the bounds in the document
-/

set_option linter.unusedSectionVars false

namespace Angonoka.Props
open Outcome Stun Cli

section
variable {K : Type} [Field K] [LinearOrder K] [IsStrictOrderedRing K] [FloorRing K] {E : FloatEnv K}

theorem drawn_linear (hE : E.IsExact) (lo hi z : K) : drawn E lo hi z = lo + (hi - lo) * (z + 2) / 4 := by
  simp only [drawn, FloatEnv.add, FloatEnv.mul, FloatEnv.div, FloatEnv.sub, hE _]
  ring

/-- Samples are between the bounds if the random numbers are between -2 and 2. -/
theorem samples_within (hE : E.IsExact) {bs : List (K × K)} {xs zs rest : List K} (h : Samples E bs xs zs rest) (hb : ∀ b ∈ bs, b.1 ≤ b.2)
    (hz : ∀ z ∈ zs, |z| ≤ 2) : List.Forall₂ (fun b x => b.1 ≤ x ∧ x ≤ b.2) bs xs ∧ ∀ z ∈ rest, |z| ≤ 2 := by
  induction h with
  | nil => exact ⟨.nil, hz⟩
  | fixed h ih =>
    obtain ⟨h1, h2⟩ := ih (fun b hb' => hb b (by simp [hb'])) hz
    exact ⟨.cons ⟨le_rfl, le_rfl⟩ h1, h2⟩
  | @drawn lo hi bounds z xs zs rest rejected hne hr hz' h ih =>
    obtain ⟨h1, h2⟩ := ih (fun b hb' => hb b (by simp [hb'])) (fun z hz' => hz z (by simp [hz']))
    have hle : lo ≤ hi := hb (lo, hi) (by simp)
    obtain ⟨h3, h4⟩ := abs_le.1 (hz z (by simp))
    refine ⟨.cons ?_ h1, h2⟩
    rw [drawn_linear hE]
    dsimp only
    constructor
    · have := mul_nonneg (sub_nonneg.2 hle) (by linarith : 0 ≤ z + 2)
      linarith
    · have := mul_nonneg (sub_nonneg.2 hle) (by linarith : 0 ≤ 2 - z)
      linarith

variable {p : Project} {sp : ScheduleParams K} {s : List Item}

/-- What a run samples. -/
theorem call_samples (hp : p.Sound) (hf : p.FloatsIn E) (hsp : toScheduleParams E p = ok sp) (hs : ValidSchedule sp s) {bounds : List (K × K)}
    (hb : p.performanceBounds bounds) {sim sim' : Simulation K} (hsim : SimulationFor E p sim) {zs rest : List K} {v : Int}
    (hc : sim.call E s zs = ok (some (v, rest, sim'))) :
    ∃ perf dur mid, Samples E bounds perf zs mid ∧ Samples E (p.durationBounds E) dur mid rest ∧
      v = Simulation.truncate (makespanValue E (sp.sampled perf dur) p.agents.length s) := by
  obtain ⟨sp', hsp', hw⟩ := params_wellFormed (E := E) hp hf
  rw [hsp] at hsp'
  cases hsp'
  obtain ⟨g1, g2, g3, g4, g5, g6⟩ := params_faithful hp.agent_groups hp.task_groups hsp
  obtain ⟨bounds', hb', hall⟩ := simCall_ok (E := E) (sp := sp) (s := s) hsim.shape hp.performance
    hp.durations (fun i t hi => (g5 i t hi).2.2) hp.deps_lt (hs.length.trans g1)
    (fun it hit => by
      have := hs.fits hw hit
      have h1 := this.task_dur
      have h2 := this.agent_perf
      exact ⟨by rw [← g1]; exact h1, by rw [← g2]; exact h2⟩)
  have heq : bounds' = bounds := by
    apply List.ext_getElem
    · rw [← hb.length_eq, ← hb'.length_eq]
    · intro i h1 h2
      obtain ⟨lo, hi, hok, he⟩ := List.Forall₂.get hb (by rw [hb.length_eq]; exact h2) h2
      obtain ⟨lo', hi', hok', he'⟩ := List.Forall₂.get hb' (by rw [hb'.length_eq]; exact h1) h1
      rw [List.get_eq_getElem] at he he'
      have e1 := hok.1.symm.trans hok'.1
      have e2 := hok.2.1.symm.trans hok'.2.1
      injection e1 with e1
      injection e2 with e2
      rw [he, he', e1, e2]
  subst heq
  rcases hall zs with ⟨h, _⟩ | ⟨perf, dur, zs', rest', sim'', h1, h2, h3⟩
  · rw [hc] at h
    cases h
  · rw [hc] at h3
    cases h3
    exact ⟨perf, dur, zs', h1, h2, rfl⟩

theorem makespanValue_slower {q q' : ScheduleParams K} (hq : WellFormed q) (h : q.Slower q') (hpos : ∀ x ∈ q'.agentPerformance, 0 < x)
    (hs : ValidSchedule q s) (n : Nat) : makespanValue E q n s ≤ makespanValue E q' n s := by
  have hq' := hq.slower h hpos
  have hs' := hs.slower h
  apply maxOf_map_le
  intro a _
  refine (runF_slower h hq.dur_nonneg hpos ?_ (fun _ => le_rfl) (fun _ => le_rfl)).2 a
  intro it hit
  exact hq'.avail_lt it.task (hs'.task_lt hit) _ (hs'.eligible it hit)

theorem sampled_valid (hs : ValidSchedule sp s) {perf dur : List K} (hdl : dur.length = sp.taskCount) : ValidSchedule (sp.sampled perf dur) s := by
  refine ⟨?_, hs.ordered, hs.eligible⟩
  have : (sp.sampled perf dur).taskCount = sp.taskCount := hdl
  rw [this]
  exact hs.complete

theorem performanceBounds_positive {bounds : List (K × K)} (hb : p.performanceBounds bounds) {b : K × K} (h : b ∈ bounds) :
    0 < b.1 ∧ b.1 ≤ b.2 := by
  obtain ⟨i, hi, rfl⟩ := List.getElem_of_mem h
  obtain ⟨lo, hi', hok, he⟩ := List.Forall₂.get hb (by rw [hb.length_eq]; exact hi) hi
  rw [List.get_eq_getElem] at he
  rw [he]
  dsimp only
  exact ⟨by exact_mod_cast hok.2.2.1, by exact_mod_cast hok.2.2.2⟩

theorem durationBounds_positive (hp : p.Sound) {b : K × K} (h : b ∈ p.durationBounds E) : 0 < b.1 ∧ b.1 ≤ b.2 := by
  obtain ⟨t, ht, rfl⟩ := List.mem_map.1 h
  have := hp.durations t ht
  exact ⟨ofInt_pos this.1, E.rnd_mono (by exact_mod_cast this.2.1)⟩

/-- The project in the best case -/
theorem best_case (hE : E.IsExact) (hp : p.Sound) (hsp : toScheduleParams E p = ok sp) (hs : ValidSchedule sp s) {perf dur : List K}
    (hpl : perf.length = p.agents.length) (hdl : dur.length = p.tasks.length) (hperf : ∀ x ∈ perf, 0 < x) (hdur : ∀ x ∈ dur, 0 < x) :
    WellFormed (sp.sampled perf dur) ∧ ValidSchedule (sp.sampled perf dur) s ∧
    ∃ start finish, Earliest E { sp with agentPerformance := perf, taskDuration := dur } s start finish ∧
      IsEnd s finish (makespanValue E (sp.sampled perf dur) p.agents.length s) := by
  obtain ⟨sp', hsp', hw⟩ := params_wellFormed (E := E) hp (fun _ _ _ _ => hE _)
  rw [hsp] at hsp'
  cases hsp'
  obtain ⟨g1, g2, -⟩ := params_faithful hp.agent_groups hp.task_groups hsp
  have hw' := sampled_wellFormed hw (hpl.trans g2.symm) (hdl.trans g1.symm) hperf hdur
  have hs' := sampled_valid (perf := perf) hs (hdl.trans g1.symm)
  obtain ⟨start, finish, hex, hend, _, hleast⟩ := makespanValue_spec (E := E) hw' hs'
  have hac : (sp.sampled perf dur).agentCount = p.agents.length := hpl
  rw [hac] at hend
  exact ⟨hw', hs', start, finish, ⟨hex, hleast⟩, hend⟩

theorem runs_between (hE : E.IsExact) (hp : p.Sound) (hsp : toScheduleParams E p = ok sp) (hs : ValidSchedule sp s) {bounds : List (K × K)}
    (hb : p.performanceBounds bounds) {vs : List Int} {zs rest : List K} (hz : ∀ z ∈ zs, |z| ≤ 2) (hr : Runs E p s vs zs rest) :
    (∀ z ∈ rest, |z| ≤ 2) ∧ ∀ v ∈ vs,
    makespanValue E (sp.sampled (bounds.map Prod.snd) (p.tasks.map fun t => (t.durMin : K))) p.agents.length s < v + 1 ∧
    v ≤ makespanValue E (sp.sampled (bounds.map Prod.fst) (p.tasks.map fun t => (t.durMax : K))) p.agents.length s := by
  have hf : p.FloatsIn E := fun _ _ _ _ => hE _
  have hbl := hb.length_eq
  induction hr with
  | nil => exact ⟨hz, by simp⟩
  | @snoc vs v zs mid rest sim sim' h hsim hc ih =>
    obtain ⟨i1, i2⟩ := ih hz
    obtain ⟨perf, dur, mid', h1, h2, hv⟩ := call_samples hp hf hsp hs hb hsim hc
    obtain ⟨w1, z1⟩ := samples_within hE h1 (fun b hb' => (performanceBounds_positive hb hb').2) i1
    obtain ⟨w2, z2⟩ := samples_within hE h2 (fun b hb' => (durationBounds_positive hp hb').2) z1
    refine ⟨z2, fun u hu => ?_⟩
    rcases List.mem_append.1 hu with hu | hu
    · exact i2 u hu
    rw [List.mem_singleton] at hu
    subst hu
    have hdb : p.durationBounds E = p.tasks.map fun t => ((t.durMin : K), (t.durMax : K)) := by
      unfold Project.durationBounds
      simp only [FloatEnv.ofInt, hE _]
    have hpl : perf.length = p.agents.length := w1.length_eq.symm.trans hbl.symm
    have hdl : dur.length = p.tasks.length := by
      rw [← w2.length_eq]
      simp [Project.durationBounds]
    have hperf : ∀ x ∈ perf, 0 < x := by
      intro x hx
      obtain ⟨i, hi, rfl⟩ := List.getElem_of_mem hx
      have := List.Forall₂.get w1 (by rw [w1.length_eq]; exact hi) hi
      exact lt_of_lt_of_le (performanceBounds_positive hb (List.get_mem _ _)).1 this.1
    have hdur : ∀ x ∈ dur, 0 < x := by
      intro x hx
      obtain ⟨i, hi, rfl⟩ := List.getElem_of_mem hx
      have := List.Forall₂.get w2 (by rw [w2.length_eq]; exact hi) hi
      exact lt_of_lt_of_le (durationBounds_positive hp (List.get_mem _ _)).1 this.1
    have hdmin : ∀ x ∈ p.tasks.map (fun t => (t.durMin : K)), 0 < x := by
      intro x hx
      obtain ⟨t, ht, rfl⟩ := List.mem_map.1 hx
      exact_mod_cast (hp.durations t ht).1
    have hfst : ∀ x ∈ bounds.map Prod.fst, 0 < x := by
      intro x hx
      obtain ⟨b, hb', rfl⟩ := List.mem_map.1 hx
      exact (performanceBounds_positive hb hb').1
    have hsnd : ∀ x ∈ bounds.map Prod.snd, 0 < x := by
      intro x hx
      obtain ⟨b, hb', rfl⟩ := List.mem_map.1 hx
      exact (performanceBounds_positive hb hb').1.trans_le (performanceBounds_positive hb hb').2
    obtain ⟨wf1, vs1, -⟩ := best_case hE hp hsp hs (perf := bounds.map Prod.snd) (dur := p.tasks.map fun t => (t.durMin : K))
      (by simp [hbl]) (by simp) hsnd hdmin
    obtain ⟨wf2, vs2, -⟩ := best_case hE hp hsp hs hpl hdl hperf hdur
    have s1 : (sp.sampled (bounds.map Prod.snd) (p.tasks.map fun t => (t.durMin : K))).Slower (sp.sampled perf dur) := by
      refine ⟨rfl, rfl, ?_, ?_⟩
      · change List.Forall₂ (· ≤ ·) (p.tasks.map fun t => (t.durMin : K)) dur
        rw [hdb, List.forall₂_map_left_iff] at w2
        rw [List.forall₂_map_left_iff]
        exact w2.imp fun _ _ h => h.1
      · change List.Forall₂ (· ≥ ·) (bounds.map Prod.snd) perf
        rw [List.forall₂_map_left_iff]
        exact w1.imp fun _ _ h => h.2
    have s2 : (sp.sampled perf dur).Slower (sp.sampled (bounds.map Prod.fst) (p.tasks.map fun t => (t.durMax : K))) := by
      refine ⟨rfl, rfl, ?_, ?_⟩
      · change List.Forall₂ (· ≤ ·) dur (p.tasks.map fun t => (t.durMax : K))
        rw [hdb, List.forall₂_map_left_iff] at w2
        rw [List.forall₂_map_right_iff]
        exact List.Forall₂.flip (w2.imp fun _ _ h => h.2)
      · change List.Forall₂ (· ≥ ·) perf (bounds.map Prod.fst)
        rw [List.forall₂_map_right_iff]
        exact List.Forall₂.flip (w1.imp fun _ _ h => h.1)
    have m1 := makespanValue_slower (E := E) wf1 s1 hperf vs1 p.agents.length
    have m2 := makespanValue_slower (E := E) wf2 s2 hfst vs2 p.agents.length
    have h0 : 0 ≤ makespanValue E (sp.sampled perf dur) p.agents.length s := by
      have := makespanValue_nonneg (E := E) wf2 vs2
      rwa [show (sp.sampled perf dur).agentCount = p.agents.length from hpl] at this
    rw [hv, truncate_of_nonneg h0]
    exact ⟨m1.trans_lt (Int.lt_floor_add_one _), (Int.floor_le _).trans m2⟩

/-- C106, in part. As long as the random numbers are between -2 and 2 (in standard deviations), every run takes at least as long as in the best case, where every task
takes its least duration and every agent has its greatest performance, and at most as long as in the worst case, up to the fraction of a second that is cut off. Missing:
the random numbers of the program are not between -2 and 2; see `runs_unbounded`. -/
theorem runs_within_partial (hE : E.IsExact) (hp : p.Sound) (hsp : toScheduleParams E p = ok sp) (hs : ValidSchedule sp s) {bounds : List (K × K)}
    (hb : p.performanceBounds bounds) :
    ∃ start finish best start' finish' worst,
      Earliest E { sp with agentPerformance := bounds.map Prod.snd, taskDuration := p.tasks.map fun t => (t.durMin : K) } s start finish ∧
      IsEnd s finish best ∧
      Earliest E { sp with agentPerformance := bounds.map Prod.fst, taskDuration := p.tasks.map fun t => (t.durMax : K) } s start' finish' ∧
      IsEnd s finish' worst ∧
      ∀ vs zs rest, (∀ z ∈ zs, |z| ≤ 2) → Runs E p s vs zs rest → ∀ v ∈ vs, best < v + 1 ∧ v ≤ worst := by
  have hbl := hb.length_eq
  obtain ⟨-, -, start, finish, h1, h2⟩ := best_case hE hp hsp hs (perf := bounds.map Prod.snd) (dur := p.tasks.map fun t => (t.durMin : K))
    (by simp [hbl]) (by simp) (by
      intro x hx
      obtain ⟨b, hb', rfl⟩ := List.mem_map.1 hx
      exact (performanceBounds_positive hb hb').1.trans_le (performanceBounds_positive hb hb').2) (by
      intro x hx
      obtain ⟨t, ht, rfl⟩ := List.mem_map.1 hx
      exact_mod_cast (hp.durations t ht).1)
  obtain ⟨-, -, start', finish', h3, h4⟩ := best_case hE hp hsp hs (perf := bounds.map Prod.fst) (dur := p.tasks.map fun t => (t.durMax : K))
    (by simp [hbl]) (by simp) (by
      intro x hx
      obtain ⟨b, hb', rfl⟩ := List.mem_map.1 hx
      exact (performanceBounds_positive hb hb').1) (by
      intro x hx
      obtain ⟨t, ht, rfl⟩ := List.mem_map.1 hx
      have := hp.durations t ht
      exact_mod_cast this.1.trans_le this.2.1)
  exact ⟨start, finish, _, start', finish', _, h1, h2, h3, h4, fun vs zs rest hz hr => (runs_between hE hp hsp hs hb hz hr).2⟩

/-- The worst case takes less than `b` seconds if every agent could do all tasks, at its least performance and their greatest durations, in less. -/
theorem worst_case_lt (hE : E.IsExact) (hp : p.Sound) (hsp : toScheduleParams E p = ok sp) (hs : ValidSchedule sp s) {bounds : List (K × K)}
    (hb : p.performanceBounds bounds) {b : ℚ} (hb0 : 0 < b)
    (hfit : ∀ a ∈ p.agents, ∀ q : ℚ, a.perfMin = .fin q → (((p.tasks.map Task.durMax).sum : Int) : ℚ) < b * q) :
    makespanValue E (sp.sampled (bounds.map Prod.fst) (p.tasks.map fun t => (t.durMax : K))) p.agents.length s < b := by
  have hbl := hb.length_eq
  obtain ⟨hpt, hpa, -⟩ := params_faithful hp.agent_groups hp.task_groups hsp
  have hdpos : ∀ t ∈ p.tasks, 0 < t.durMax := by
    intro t ht
    have := hp.durations t ht
    exact this.1.trans_le this.2.1
  set q := sp.sampled (bounds.map Prod.fst) (p.tasks.map fun t => (t.durMax : K)) with hq
  obtain ⟨hw, hs', -⟩ := best_case hE hp hsp hs (perf := bounds.map Prod.fst) (dur := p.tasks.map fun t => (t.durMax : K))
    (by simp [hbl]) (by simp) (by
      intro x hx
      obtain ⟨b, hb', rfl⟩ := List.mem_map.1 hx
      exact (performanceBounds_positive hb hb').1) (by
      intro x hx
      obtain ⟨t, ht, rfl⟩ := List.mem_map.1 hx
      exact_mod_cast hdpos t ht)
  rw [← hq] at hw hs'
  have hac : q.agentCount = p.agents.length := (List.length_map _).trans hbl.symm
  rw [← hac]
  refine (makespanValue_le_sum E hw hs').trans_lt ?_
  rw [hE.sum_eq]
  have hdur : ∀ t (ht : t < p.tasks.length), q.taskDuration.getD t 0 = ((p.tasks[t].durMax : Int) : K) := by
    intro t ht
    simp [hq, ScheduleParams.sampled, List.getD_eq_getElem?_getD, List.getElem?_eq_getElem ht]
  have hS : (0 : K) < (((p.tasks.map Task.durMax).sum : Int) : K) := by
    have : 0 < (p.tasks.map Task.durMax).sum := by
      apply List.sum_pos
      · intro x hx
        obtain ⟨t, ht, rfl⟩ := List.mem_map.1 hx
        exact hdpos t ht
      · simpa using hp.tasks_ne
    exact_mod_cast this
  set S : K := (((p.tasks.map Task.durMax).sum : Int) : K) with hSdef
  have hle : ∀ it ∈ s, q.itemTime E it < q.taskDuration.getD it.task 0 * (b / S) := by
    intro it hit
    have hfits := hs'.fits hw hit
    have ht : it.task < p.tasks.length := by
      have := hfits.task_dur
      simpa [hq, ScheduleParams.sampled] using this
    have ha : it.agent < bounds.length := by
      have := hfits.agent_perf
      simpa [hq, ScheduleParams.sampled] using this
    have htime : q.itemTime E it = q.taskDuration.getD it.task 0 / q.agentPerformance.getD it.agent 0 := by
      unfold ScheduleParams.itemTime FloatEnv.div
      rw [hE]
    obtain ⟨lo, hi', hok, he⟩ := List.Forall₂.get hb (by rw [hb.length_eq]; exact ha) ha
    rw [List.get_eq_getElem] at he
    have hpe : q.agentPerformance.getD it.agent 0 = (lo : K) := by
      simp [hq, ScheduleParams.sampled, List.getD_eq_getElem?_getD, List.getElem?_eq_getElem ha, he]
    rw [htime, hdur _ ht, hpe]
    have h0 : (0 : K) < ((p.tasks[it.task].durMax : Int) : K) := by
      exact_mod_cast hdpos _ (List.getElem_mem ht)
    have h1 : (0 : K) < lo := by exact_mod_cast hok.2.2.1
    have h2 : S < b * (lo : K) := by
      have := hfit _ (List.get_mem _ _) lo hok.1
      rw [hSdef]
      exact_mod_cast this
    rw [div_eq_mul_inv]
    refine mul_lt_mul_of_pos_left ?_ h0
    rw [inv_eq_one_div, div_lt_div_iff₀ h1 hS]
    linarith
  have hsne : s ≠ [] := by
    intro h0
    have := hs.length
    have := List.length_pos_of_ne_nil hp.tasks_ne
    rw [h0] at *
    simp only [List.length_nil] at *
    omega
  refine lt_of_lt_of_eq (List.sum_lt_sum_of_ne_nil hsne _ _ hle) ?_
  have hperm := hs.complete.map fun t => q.taskDuration.getD t 0 * (b / S)
  have h1 := hperm.sum_eq
  rw [List.map_map] at h1
  rw [show (fun it : Item => q.taskDuration.getD it.task 0 * (b / S))
    = (fun t => q.taskDuration.getD t 0 * (b / S)) ∘ Item.task from rfl, h1,
    List.sum_map_mul_right]
  have h2 : (List.range sp.taskCount).map (fun t => q.taskDuration.getD t 0)
      = (p.tasks.map Task.durMax).map (Int.cast : Int → K) := by
    apply List.ext_getElem
    · simp [hpt]
    · intro i h1 h2
      simp only [List.getElem_map, List.getElem_range]
      rw [hdur i (by simpa using h2)]
  rw [h2, ← Int.cast_list_sum, ← hSdef]
  field_simp

variable {m : Machine K} {o : Cli.Options K}

/-- C106. The longest run decides: let the conditions of `prediction_ends` be met. If all runs take less than 2³¹ seconds, the program exits with 0 and has written
the output file. If a run takes a bin more than 2³¹ seconds (a day, unless given), the program aborts and has written none. -/
theorem overlong_run_aborts (hE : E.IsExact) (hf : o.filename ≠ "") (hout : o.output ≠ "")
    {root : Yaml} {p : Project} (hs : m.source = .doc root) (hl : load m.readFloat root = ok p)
    (hp : p.Sound) (hmod : p.Moderate) (hw : CanWrite m o) (ht : 0 < m.threads)
    {sp : ScheduleParams K} (hsp : toScheduleParams E p = ok sp)
    (ho : ValidOptions E (o.opt.options sp)) (hbin : ∀ b ∈ o.binSize, 1 ≤ b ∧ b < 2 ^ 31)
    {k : Nat} (hk : 1 ≤ k) (hk' : 10000 * k < 2 ^ 31) :
    ∃ (N : Nat) (s : List Item), ValidSchedule sp s ∧ ∀ fuel, N ≤ fuel → ∀ fuel', k ≤ fuel' → ∀ zs : List K,
      10000 * k * (p.agents.length + p.tasks.length) ≤ (zs.countP fun z => 0 ≤ z) →
      RuleAnswers E p s m.more zs → (∀ vs rest, Runs E p s vs zs rest → vs.length = 10000 * k → m.more vs = ok false) →
      ∀ result, result = body E { m with fuel := fuel, fuel' := fuel', zs := zs } .predict o →
        ∃ vs rest, 10000 ≤ vs.length ∧ vs.length ≤ 10000 * k ∧ Runs E p s vs zs rest ∧
          ((∀ v ∈ vs, v < 2 ^ 31) → status result.flow = .exit 0 ∧ ∃ j, .file o.output j ∈ result.effects) ∧
          ((∃ v ∈ vs, 2 ^ 31 + o.binSize.getD (24 * 60 * 60) ≤ v) → status result.flow = .aborted .range ∧ ∀ e ∈ result.effects, ¬ e.IsFile) := by
  have hfl : p.FloatsIn E := fun _ _ _ _ => hE _
  have hb := fun s h => (moderate_executions hE hp hmod hsp (s := s) h).1
  have h1 := fun s h => (moderate_executions hE hp hmod hsp (s := s) h).2
  obtain ⟨N, s, mk, es, hvs, -, h⟩ := predict_command_full hf hout hs hl hp hfl hw ht
    hsp ho hbin (P := fun s mk es => True) (Few := fun _ => True)
    (fun s v hs hv => by
      obtain ⟨mk, es, start, finish, hm, hj, hlen, hcor, hex, V, hend, hV⟩ := schedule_json_exact hE hp hsp hs
        hv (hb _ hs) (h1 _ hs)
      refine ⟨mk, es, hm, hj, ?_, trivial⟩
      obtain ⟨it, hit, h⟩ := h1 _ hs start finish hex.1
      have h2 := lt_of_le_of_lt (h.trans (hend.1 it hit)) hV.2
      have : (0 : K) < mk := by linarith
      have : 0 < mk := by exact_mod_cast this
      omega)
    (fun w vs h k hh hk hlen _ => percentiles_fraction hE hh (by
      rintro rfl
      simp at hlen
      omega))
  refine ⟨N, s, hvs, fun fuel hN fuel' hf' zs hz hmore hstop result hres => ?_⟩
  rcases h fuel hN fuel' zs hmore result hres with ⟨_, _, h⟩ | ⟨vs, rest, k', bins, h1, h2, h3, h4, _, h5⟩
  · exact absurd h (histogram_ends hp hfl hsp hvs hmore hk hstop hf' hz)
  · have hkk := batches_le hk h2 h3 h4 hstop
    obtain ⟨st, -, h6, h7⟩ := h5 trivial
    refine ⟨vs, rest, by omega, by omega, h3, fun hv => ?_, fun ⟨v, hv, hle⟩ => ?_⟩
    · obtain ⟨h6, pre, post, _, _, h7⟩ := h6 hv (by omega)
      exact ⟨h6, _, by rw [h7]; exact List.mem_append_left _ (List.mem_append_right _ (List.mem_singleton.2 rfl))⟩
    · refine h7 ⟨v, hv, le_trans ?_ hle⟩ (by omega)
      have : resolutionOf o.binSize mk ≤ o.binSize.getD (24 * 60 * 60) := by
        unfold resolutionOf
        cases o.binSize with
        | none =>
          dsimp only [Option.getD]
          split_ifs <;> norm_num
        | some b => exact le_rfl
      omega

/-- C106, in part. If the random numbers are between -2 and 2, and every agent could do all tasks in less than 2³¹ seconds, even at its least performance and
their greatest durations, then the program without a command exits with 0 and writes the output file, provided the conditions of `prediction_ends` are met. Missing: the random
numbers of the program are not between -2 and 2; see `prediction_may_abort`. -/
theorem worst_case_fits_partial (hE : E.IsExact) (hf : o.filename ≠ "") (hout : o.output ≠ "")
    {root : Yaml} {p : Project} (hs : m.source = .doc root) (hl : load m.readFloat root = ok p)
    (hp : p.Sound) (hmod : p.Moderate) (hw : CanWrite m o) (ht : 0 < m.threads)
    {sp : ScheduleParams K} (hsp : toScheduleParams E p = ok sp)
    (ho : ValidOptions E (o.opt.options sp)) (hbin : ∀ b ∈ o.binSize, 1 ≤ b ∧ b < 2 ^ 31)
    {k : Nat} (hk : 1 ≤ k) (hk' : 10000 * k < 2 ^ 31)
    (hfit : ∀ a ∈ p.agents, ∀ q : ℚ, a.perfMin = .fin q → (((p.tasks.map Task.durMax).sum : Int) : ℚ) < 2 ^ 31 * q) :
    ∃ (N : Nat) (s : List Item), ValidSchedule sp s ∧ ∀ fuel, N ≤ fuel → ∀ fuel', k ≤ fuel' → ∀ zs : List K,
      (∀ z ∈ zs, |z| ≤ 2) → 10000 * k * (p.agents.length + p.tasks.length) ≤ (zs.countP fun z => 0 ≤ z) →
      RuleAnswers E p s m.more zs → (∀ vs rest, Runs E p s vs zs rest → vs.length = 10000 * k → m.more vs = ok false) →
      ∀ result, result = body E { m with fuel := fuel, fuel' := fuel', zs := zs } .predict o →
        status result.flow = .exit 0 ∧ ∃ j, .file o.output j ∈ result.effects := by
  obtain ⟨N, s, hvs, h⟩ := overlong_run_aborts hE hf hout hs hl hp hmod hw ht hsp ho hbin hk hk'
  refine ⟨N, s, hvs, fun fuel hN fuel' hf' zs hz2 hz hmore hstop result hres => ?_⟩
  obtain ⟨vs, rest, -, -, hr, hex, -⟩ := h fuel hN fuel' hf' zs hz hmore hstop result hres
  refine hex fun v hv => ?_
  obtain ⟨bounds, _, hb⟩ := performanceBounds_ok (K := K) hp.performance
  have h1 := ((runs_between hE hp hsp hvs hb hz2 hr).2 v hv).2
  have h2 := worst_case_lt hE hp hsp hvs hb (b := 2 ^ 31) (by norm_num) hfit
  have h3 := h1.trans_lt h2
  exact_mod_cast h3

end

section
open MeasureTheory ProbabilityTheory Restart Filter Topology

variable {E : FloatEnv ℝ}

/-- Intervals of random numbers that lead to samples in given sets -/
theorem samples_cylinder {bs : List (ℝ × ℝ)} {Ts : List (Set ℝ)}
    (h : List.Forall₂ (fun b T => b.1 = b.2 ∧ b.1 ∈ T ∨ b.1 ≠ b.2 ∧ ∃ a c : ℝ, a < c ∧
      ∀ z ∈ Set.Ioo a c, 0 < drawn E b.1 b.2 z ∧ drawn E b.1 b.2 z ∈ T) bs Ts) :
    ∃ (n : ℕ) (lo hi : ℕ → ℝ), (∀ i, lo i < hi i) ∧ ∀ ζ : ℕ → ℝ, (∀ i < n, ζ i ∈ Set.Ioo (lo i) (hi i)) →
      ∃ xs, List.Forall₂ (fun x T => x ∈ T) xs Ts ∧ ∀ rest, Samples E bs xs (firsts n ζ ++ rest) rest := by
  induction h with
  | nil => exact ⟨0, fun _ => 0, fun _ => 1, by simp, fun ζ _ => ⟨[], .nil, fun rest => .nil⟩⟩
  | @cons b T bs Ts hb _ ih =>
    obtain ⟨n, lo, hi, hlt, hall⟩ := ih
    obtain ⟨b1, b2⟩ := b
    dsimp only at hb
    rcases hb with ⟨rfl, hT⟩ | ⟨hne, a, c, hac, hz⟩
    · refine ⟨n, lo, hi, hlt, fun ζ hζ => ?_⟩
      obtain ⟨xs, h1, h2⟩ := hall ζ hζ
      exact ⟨b1 :: xs, .cons hT h1, fun rest => .fixed (h2 rest)⟩
    · refine ⟨n + 1, fun i => if i = 0 then a else lo (i - 1), fun i => if i = 0 then c else hi (i - 1), ?_, fun ζ hζ => ?_⟩
      · intro i
        dsimp only
        split_ifs
        · exact hac
        · exact hlt _
      · obtain ⟨xs, h1, h2⟩ := hall (shift 1 ζ) (fun i hi' => by
          have := hζ (i + 1) (by omega)
          simpa [shift] using this)
        have h0 := hz (ζ 0) (by simpa using hζ 0 (by omega))
        refine ⟨_, .cons h0.2 h1, fun rest => ?_⟩
        have e : firsts (n + 1) ζ = ζ 0 :: firsts n (shift 1 ζ) := by
          rw [Nat.add_comm, firsts_append]
          rfl
        rw [e]
        exact .drawn [] hne (by simp) h0.1 (h2 rest)

/-- Numbers above the middle -/
theorem drawn_upper (hE : E.IsExact) {lo hi : ℝ} (h0 : 0 < lo) (hle : lo ≤ hi) {z : ℝ} (hz : z ∈ Set.Ioo (0 : ℝ) 1) :
    lo ≤ drawn E lo hi z ∧ drawn E lo hi z ≤ hi := by
  rw [drawn_linear hE]
  have h1 := mul_nonneg (sub_nonneg.2 hle) (by linarith [hz.1] : 0 ≤ z + 2)
  have h2 := mul_nonneg (sub_nonneg.2 hle) (by linarith [hz.2] : 0 ≤ 2 - z)
  constructor <;> linarith

variable {p : Project} {sp : ScheduleParams ℝ} {s : List Item}

theorem overlong_cylinder (hE : E.IsExact) (hp : p.Sound) (hsp : toScheduleParams E p = ok sp) (hs : ValidSchedule sp s) (hu : Uncertain p s) (x : Int) :
    ∃ (n : ℕ) (lo hi : ℕ → ℝ), (∀ i, lo i < hi i) ∧ ∀ ζ : ℕ → ℝ, (∀ i < n, ζ i ∈ Set.Ioo (lo i) (hi i)) →
      ∃ v, x ≤ v ∧ ∀ sim, SimulationFor E p sim → ∀ rest, ∃ sim', sim.call E s (firsts n ζ ++ rest) = ok (some (v, rest, sim')) := by
  have hf : p.FloatsIn E := fun _ _ _ _ => hE _
  obtain ⟨bounds, _, hb⟩ := performanceBounds_ok (K := ℝ) hp.performance
  have hbl := hb.length_eq
  obtain ⟨hpt, hpa, -⟩ := params_faithful hp.agent_groups hp.task_groups hsp
  have hdb : p.durationBounds E = p.tasks.map fun t => ((t.durMin : ℝ), (t.durMax : ℝ)) := by
    unfold Project.durationBounds
    simp only [FloatEnv.ofInt, hE _]
  obtain ⟨sp', hsp', hw⟩ := params_wellFormed (E := E) hp hf
  rw [hsp] at hsp'
  cases hsp'
  set X : ℝ := max 1 x with hX
  have hX1 : 1 ≤ X := le_max_left _ _
  -- an item whose time is uncertain
  obtain ⟨it, hit, U, L, hU, hL, hLU, hA, hT⟩ : ∃ it ∈ s, ∃ U L : ℝ, 0 < U ∧ 0 ≤ L ∧ X * U ≤ L ∧
      (∀ (h : it.agent < bounds.length), bounds[it.agent].1 = bounds[it.agent].2 ∧ bounds[it.agent].1 ≤ U ∨
        bounds[it.agent].1 ≠ bounds[it.agent].2 ∧ ∃ a c : ℝ, a < c ∧ ∀ z ∈ Set.Ioo a c,
          0 < drawn E bounds[it.agent].1 bounds[it.agent].2 z ∧ drawn E bounds[it.agent].1 bounds[it.agent].2 z ≤ U) ∧
      (∀ (h : it.task < p.tasks.length), (p.tasks[it.task].durMin : ℝ) = p.tasks[it.task].durMax ∧ L ≤ p.tasks[it.task].durMin ∨
        (p.tasks[it.task].durMin : ℝ) ≠ p.tasks[it.task].durMax ∧ ∃ a c : ℝ, a < c ∧ ∀ z ∈ Set.Ioo a c,
          0 < drawn E p.tasks[it.task].durMin p.tasks[it.task].durMax z ∧ L ≤ drawn E p.tasks[it.task].durMin p.tasks[it.task].durMax z) := by
    have hfit : ∀ it ∈ s, it.task < p.tasks.length ∧ it.agent < bounds.length := by
      intro it hit
      have := hs.fits hw hit
      exact ⟨by rw [← hpt]; exact this.task_dur, by rw [← hbl, ← hpa]; exact this.agent_perf⟩
    have hbp : ∀ i (h : i < bounds.length), 0 < bounds[i].1 ∧ bounds[i].1 ≤ bounds[i].2 := fun i h =>
      performanceBounds_positive hb (List.getElem_mem h)
    have hdp : ∀ i (h : i < p.tasks.length), (0 : ℝ) < p.tasks[i].durMin ∧ (p.tasks[i].durMin : ℝ) ≤ p.tasks[i].durMax := by
      intro i h
      have := hp.durations _ (List.getElem_mem h)
      exact ⟨by exact_mod_cast this.1, by exact_mod_cast this.2.1⟩
    rcases hu with ⟨t, ht, hne⟩ | ⟨it, hit, a, ha, hne⟩
    · obtain ⟨i, hi, rfl⟩ := List.getElem_of_mem ht
      have hmem : i ∈ s.map Item.task := hs.complete.mem_iff.2 (List.mem_range.2 (by rw [hpt]; exact hi))
      obtain ⟨it, hit, rfl⟩ := List.mem_map.1 hmem
      obtain ⟨h1, h2⟩ := hfit it hit
      obtain ⟨b1, b2⟩ := hbp _ h2
      obtain ⟨d1, d2⟩ := hdp _ h1
      set dl : ℝ := p.tasks[it.task].durMin with hdl
      set dh : ℝ := p.tasks[it.task].durMax with hdh
      have hne' : dl ≠ dh := by
        rw [hdl, hdh]
        exact_mod_cast hne
      have hlt : 0 < dh - dl := sub_pos.2 (lt_of_le_of_ne d2 hne')
      set U := bounds[it.agent].2 with hU
      have hU0 : 0 < U := b1.trans_le b2
      refine ⟨it, hit, U, X * U, hU0, by positivity, le_rfl, fun _ => ?_, fun _ => Or.inr ⟨hne', ?_⟩⟩
      · by_cases he : bounds[it.agent].1 = bounds[it.agent].2
        · exact Or.inl ⟨he, b2⟩
        · refine Or.inr ⟨he, 0, 1, one_pos, fun z hz => ?_⟩
          have := drawn_upper hE b1 b2 hz
          exact ⟨b1.trans_le this.1, this.2⟩
      · refine ⟨4 * (X * U) / (dh - dl), 4 * (X * U) / (dh - dl) + 1, by linarith, fun z hz => ?_⟩
        have h3 := (div_lt_iff₀ hlt).1 hz.1
        rw [drawn_linear hE]
        have : 0 < X * U := by positivity
        constructor <;> nlinarith
    · obtain ⟨h1, h2⟩ := hfit it hit
      obtain ⟨b1, b2⟩ := hbp _ h2
      obtain ⟨d1, d2⟩ := hdp _ h1
      obtain ⟨lo, hi', hok, he⟩ := List.Forall₂.get hb (by rw [hbl]; exact h2) h2
      rw [List.get_eq_getElem] at he
      have hlh : bounds[it.agent].1 ≠ bounds[it.agent].2 := by
        rw [he]
        dsimp only
        intro hq
        apply hne
        rw [List.getElem?_eq_getElem (by rw [hbl]; exact h2)] at ha
        cases ha
        have e1 := hok.1
        have e2 := hok.2.1
        rw [List.get_eq_getElem] at e1 e2
        dsimp only at e1 e2
        rw [e1, e2]
        congr 1
        exact_mod_cast hq
      set bl := bounds[it.agent].1 with hbl'
      set bh := bounds[it.agent].2 with hbh'
      have hlt : 0 < bh - bl := sub_pos.2 (lt_of_le_of_ne b2 hlh)
      set dl : ℝ := p.tasks[it.task].durMin with hdl
      have hX0 : 0 < X := by linarith
      refine ⟨it, hit, dl / X, dl, by positivity, d1.le, by rw [mul_div_cancel₀ _ hX0.ne'], fun _ => Or.inr ⟨hlh, ?_⟩, fun _ => ?_⟩
      · refine ⟨-2 - 4 * bl / (bh - bl), -2 - 4 * bl / (bh - bl) + 4 * (dl / X) / (bh - bl), by
          have : 0 < 4 * (dl / X) / (bh - bl) := by positivity
          linarith, fun z hz => ?_⟩
        rw [drawn_linear hE]
        have h3 : -(4 * bl) < (z + 2) * (bh - bl) := by
          have := hz.1
          have h4 : -(4 * bl / (bh - bl)) < z + 2 := by linarith
          rw [← neg_div] at h4
          exact (div_lt_iff₀ hlt).1 h4
        have h4 : (z + 2) * (bh - bl) < -(4 * bl) + 4 * (dl / X) := by
          have := hz.2
          have h4 : z + 2 < (-(4 * bl) + 4 * (dl / X)) / (bh - bl) := by
            rw [add_div, neg_div]
            linarith
          exact (lt_div_iff₀ hlt).1 h4
        constructor <;> linarith
      · by_cases he : (p.tasks[it.task].durMin : ℝ) = p.tasks[it.task].durMax
        · exact Or.inl ⟨he, le_rfl⟩
        · refine Or.inr ⟨he, 0, 1, one_pos, fun z hz => ?_⟩
          have := drawn_upper hE d1 d2 hz
          exact ⟨d1.trans_le this.1, this.1⟩
  obtain ⟨n, lo, hi, hlt, hall⟩ := samples_cylinder (E := E) (bs := bounds ++ p.durationBounds E)
    (Ts := (List.range bounds.length).map (fun i => if i = it.agent then Set.Iic U else Set.univ) ++
      (List.range p.tasks.length).map (fun i => if i = it.task then Set.Ici L else Set.univ)) (by
    apply List.rel_append
    · rw [List.forall₂_iff_get]
      refine ⟨by simp, fun i h1 h2 => ?_⟩
      simp only [List.get_eq_getElem, List.getElem_map, List.getElem_range]
      by_cases hi : i = it.agent
      · subst hi
        simp only [if_true, Set.mem_Iic]
        exact hA h1
      · rw [if_neg hi]
        obtain ⟨b1, b2⟩ := performanceBounds_positive hb (List.getElem_mem h1)
        by_cases he : bounds[i].1 = bounds[i].2
        · exact Or.inl ⟨he, trivial⟩
        · exact Or.inr ⟨he, 0, 1, one_pos, fun z hz => ⟨b1.trans_le (drawn_upper hE b1 b2 hz).1, trivial⟩⟩
    · rw [hdb, List.forall₂_iff_get]
      refine ⟨by simp, fun i h1 h2 => ?_⟩
      have h1' : i < p.tasks.length := by simpa using h1
      simp only [List.get_eq_getElem, List.getElem_map, List.getElem_range]
      by_cases hi : i = it.task
      · subst hi
        simp only [if_true, Set.mem_Ici]
        exact hT h1'
      · rw [if_neg hi]
        have h := hp.durations _ (List.getElem_mem h1')
        have d1 : (0 : ℝ) < p.tasks[i].durMin := by exact_mod_cast h.1
        have d2 : (p.tasks[i].durMin : ℝ) ≤ p.tasks[i].durMax := by exact_mod_cast h.2.1
        by_cases he : (p.tasks[i].durMin : ℝ) = p.tasks[i].durMax
        · exact Or.inl ⟨he, trivial⟩
        · exact Or.inr ⟨he, 0, 1, one_pos, fun z hz => ⟨d1.trans_le (drawn_upper hE d1 d2 hz).1, trivial⟩⟩)
  refine ⟨n, lo, hi, hlt, fun ζ hζ => ?_⟩
  obtain ⟨xs, hxs, hsamp⟩ := hall ζ hζ
  obtain ⟨perf, dur, mid, rfl, h1, h2⟩ := samples_append (hsamp [])
  have hpl : perf.length = bounds.length := h1.length
  have hdl : dur.length = p.tasks.length := by
    rw [h2.length]
    simp [Project.durationBounds]
  have hperf := h1.pos fun b hb' => (performanceBounds_positive hb hb').1
  have hdur := h2.pos fun b hb' => (durationBounds_positive hp hb').1
  obtain ⟨hw', hs', start, finish, hex, hend⟩ := best_case hE hp hsp hs (hpl.trans hbl.symm) hdl hperf hdur
  have hfit := hs.fits hw hit
  have ha : it.agent < perf.length := by rw [hpl, ← hbl, ← hpa]; exact hfit.agent_perf
  have ht : it.task < dur.length := by rw [hdl, ← hpt]; exact hfit.task_dur
  have ga : perf[it.agent] ≤ U := by
    have := List.Forall₂.get hxs (i := it.agent) (by rw [List.length_append]; omega) (by simp; omega)
    simp only [List.get_eq_getElem] at this
    rw [List.getElem_append_left ha, List.getElem_append_left (by simp; omega)] at this
    simpa using this
  have gt : L ≤ dur[it.task] := by
    have := List.Forall₂.get hxs (i := perf.length + it.task) (by rw [List.length_append]; omega) (by simp; omega)
    simp only [List.get_eq_getElem] at this
    rw [List.getElem_append_right (as := perf) (bs := dur) (by omega), List.getElem_append_right (by simp; omega)] at this
    simpa [hpl] using this
  refine ⟨Simulation.truncate (makespanValue E (sp.sampled perf dur) p.agents.length s), ?_, ?_⟩
  · have h3 := hend.1 it hit
    rw [hex.1.time it hit, FloatEnv.add, hE] at h3
    have h4 := hex.1.nonneg it hit
    have h5 : ScheduleParams.itemTime E { sp with agentPerformance := perf, taskDuration := dur } it = dur[it.task] / perf[it.agent] := by
      unfold ScheduleParams.itemTime FloatEnv.div
      rw [hE]
      simp [List.getD_eq_getElem?_getD, List.getElem?_eq_getElem ha, List.getElem?_eq_getElem ht]
    rw [h5] at h3
    have hpa0 := hperf _ (List.getElem_mem ha)
    have h6 : X ≤ dur[it.task] / perf[it.agent] := by
      rw [le_div_iff₀ hpa0]
      have := mul_le_mul_of_nonneg_left ga (by linarith : 0 ≤ X)
      linarith
    have h7 : X ≤ makespanValue E (sp.sampled perf dur) p.agents.length s := by linarith
    rw [truncate_of_nonneg (by linarith), Int.le_floor]
    exact (le_max_right _ _).trans h7
  · intro sim hsim rest
    obtain ⟨perf', dur', mid', he, h3, h4⟩ := samples_append (hsamp rest)
    obtain ⟨rfl, rfl⟩ := List.append_inj he (hpl.trans h3.length.symm)
    exact call_of_samples hp hf hsp hs hsim hb h3 h4

end

section
open MeasureTheory ProbabilityTheory Restart Filter Topology

variable {Ω : Type} [MeasurableSpace Ω] {P : Measure Ω} [IsProbabilityMeasure P] {Z : Nat → Ω → ℝ}
variable {E : FloatEnv ℝ} {p : Project} {sp : ScheduleParams ℝ} {s : List Item}

theorem WideNumbers.cylinder (hZ : WideNumbers P Z) (n : ℕ) {lo hi : ℕ → ℝ} (h : ∀ i, lo i < hi i) :
    MeasurableSet {ω | ∀ i < n, Z i ω ∈ Set.Ioo (lo i) (hi i)} ∧ P {ω | ∀ i < n, Z i ω ∈ Set.Ioo (lo i) (hi i)} ≠ 0 := by
  have e : {ω | ∀ i < n, Z i ω ∈ Set.Ioo (lo i) (hi i)} = ⋂ i ∈ Finset.range n, Z i ⁻¹' Set.Ioo (lo i) (hi i) := by
    ext ω
    simp
  rw [e]
  refine ⟨Finset.measurableSet_biInter _ fun i _ => hZ.measurable i measurableSet_Ioo, ?_⟩
  rw [hZ.independent.measure_inter_preimage_eq_mul (Finset.range n) fun i _ => measurableSet_Ioo, Finset.prod_ne_zero_iff]
  intro i _
  have := hZ.same i _ (measurableSet_Ioo (a := lo i) (b := hi i))
  refine ne_of_eq_of_ne this ?_
  exact hZ.wide _ _ (h i)

/-- C106. The code does not keep the runs within bounds: if the duration of a task or the performance of an agent that has a task is uncertain, a run can take
any time, with a positive probability, and with probability one there are runs that take longer than any given time, whatever the greatest durations and least
performances in the document are. -/
theorem runs_unbounded (hE : E.IsExact) (hp : p.Sound) (hsp : toScheduleParams E p = ok sp) (hs : ValidSchedule sp s) (hu : Uncertain p s)
    (hZ : WideNumbers P Z) :
    ∃ π : Measure Int, IsProbabilityMeasure π ∧ LawOfRuns P Z E p s π ∧ (∀ x, π (Set.Ici x) ≠ 0) ∧
      ∀ᵐ ω ∂P, ∃ r, ResultsOf E p s (fun i => Z i ω) r ∧ ∀ x, ∃ j, x ≤ r j := by
  obtain ⟨π, hπ1, hπ, hae⟩ := runs_independent hp (fun _ _ _ _ => hE _) hsp hs hZ.toRandomNumbers
  have hpos : ∀ x, π (Set.Ici x) ≠ 0 := by
    intro x
    obtain ⟨n, lo, hi, hlt, hall⟩ := overlong_cylinder hE hp hsp hs hu x
    have h1 := hπ [Set.Ici x]
    rw [List.map_singleton, List.prod_singleton] at h1
    rw [← h1]
    refine fun h0 => (hZ.cylinder n hlt).2 (measure_mono_null ?_ h0)
    intro ω hω
    obtain ⟨v, hv, hc⟩ := hall (fun i => Z i ω) hω
    obtain ⟨sim, hsim⟩ := simulation_exists p E hp
    obtain ⟨sim', hc⟩ := hc sim hsim []
    rw [List.append_nil] at hc
    exact ⟨n, [v], [], .snoc (vs := []) .nil hsim hc, .cons hv .nil⟩
  refine ⟨π, hπ1, hπ, hpos, ?_⟩
  filter_upwards [hae] with ω ⟨r, hr, hfreq⟩
  refine ⟨r, hr, fun x => ?_⟩
  by_contra hno
  push Not at hno
  have h1 := frequency_lt hfreq x
  have h2 : Tendsto (fun n : Nat => ((((List.range n).map r).countP fun v => decide (v < x) : Nat) : ℝ) / n) atTop (𝓝 1) := by
    refine tendsto_const_nhds.congr' ?_
    filter_upwards [eventually_gt_atTop 0] with n hn
    have : (((List.range n).map r).countP fun v => decide (v < x)) = n := by
      rw [List.countP_eq_length.2]
      · simp
      · intro v hv
        obtain ⟨j, -, rfl⟩ := List.mem_map.1 hv
        simpa using hno j
    rw [this, div_self]
    exact_mod_cast hn.ne'
  have h3 := tendsto_nhds_unique h1 h2
  have h4 : π (Set.Iio x) = 1 := by
    rw [← ENNReal.ofReal_toReal (measure_ne_top π _), h3, ENNReal.ofReal_one]
  have h5 : π (Set.Iio x)ᶜ = 0 := (prob_compl_eq_zero_iff measurableSet_Iio).2 h4
  rw [Set.compl_Iio] at h5
  exact hpos x h5

variable {m : Machine ℝ} {o : Cli.Options ℝ}

/-- C106. The program without a command aborts with a positive probability: let the document load into a sound project that takes between a second and
2³¹ seconds, let the options be valid, and let the duration of a task or the performances of all agents be uncertain. Let the random numbers be independent, with the
same law and a positive probability for every interval (as normal ones), and let the stopping rule not fail and be satisfied after at most `10000 * k` runs. Then there is an
event with a positive probability, in which the program aborts with no output file, once it has got enough random numbers. -/
theorem prediction_may_abort (hE : E.IsExact) (hf : o.filename ≠ "") (hout : o.output ≠ "")
    {root : Yaml} (hs : m.source = .doc root) (hl : load m.readFloat root = ok p)
    (hp : p.Sound) (hmod : p.Moderate) (hw : CanWrite m o) (ht : 0 < m.threads) (hsp : toScheduleParams E p = ok sp)
    (ho : ValidOptions E (o.opt.options sp)) (hbin : ∀ b ∈ o.binSize, 1 ≤ b ∧ b < 2 ^ 31)
    {k : Nat} (hk : 1 ≤ k) (hk' : 10000 * k < 2 ^ 31) (hmore : ∀ vs, ∃ c, m.more vs = ok c) (hstop : ∀ vs, vs.length = 10000 * k → m.more vs = ok false)
    (hu : (∃ t ∈ p.tasks, t.durMin ≠ t.durMax) ∨ ∀ a ∈ p.agents, a.perfMin ≠ a.perfMax) (hZ : WideNumbers P Z) :
    ∃ (N : Nat) (A : Set Ω), MeasurableSet A ∧ P A ≠ 0 ∧ ∀ ω ∈ A, ∃ M, ∀ fuel fuel' M', N ≤ fuel → k ≤ fuel' → M ≤ M' →
      ∀ result, result = body E { m with fuel := fuel, fuel' := fuel', zs := (List.range M').map fun i => Z i ω } .predict o →
        status result.flow = .aborted .range ∧ ∀ e ∈ result.effects, ¬ e.IsFile := by
  have hfl : p.FloatsIn E := fun _ _ _ _ => hE _
  obtain ⟨N, s, hvs, h⟩ := overlong_run_aborts hE hf hout hs hl hp hmod hw ht hsp ho hbin hk hk'
  have hu' : Uncertain p s := by
    rcases hu with hu | hu
    · exact Or.inl hu
    · obtain ⟨hpt, hpa, -⟩ := params_faithful hp.agent_groups hp.task_groups hsp
      obtain ⟨sp', hsp', hwf⟩ := params_wellFormed (E := E) hp hfl
      rw [hsp] at hsp'
      cases hsp'
      have hsne : s ≠ [] := by
        intro h0
        have := hvs.length
        have := List.length_pos_of_ne_nil hp.tasks_ne
        rw [h0] at *
        simp only [List.length_nil] at *
        omega
      obtain ⟨it, hit⟩ := List.exists_mem_of_ne_nil _ hsne
      have ha : it.agent < p.agents.length := by rw [← hpa]; exact (hvs.fits hwf hit).agent_perf
      exact Or.inr ⟨it, hit, _, List.getElem?_eq_getElem ha, hu _ (List.getElem_mem ha)⟩
  obtain ⟨n, lo, hi, hlt, hall⟩ := overlong_cylinder hE hp hsp hvs hu' (2 ^ 31 + o.binSize.getD (24 * 60 * 60))
  obtain ⟨hA, hP⟩ := hZ.cylinder n hlt
  have hinf := hZ.toRandomNumbers.infinitely_often
  obtain ⟨B, hB1, hB2, hB3⟩ := exists_measurable_superset_of_null (ae_iff.1 hinf)
  refine ⟨N, {ω | ∀ i < n, Z i ω ∈ Set.Ioo (lo i) (hi i)} \ B, hA.diff hB2, ?_, ?_⟩
  · rwa [measure_sdiff_null hB3]
  rintro ω ⟨hω, hωB⟩
  have hωi : ∀ n, ∃ i ≥ n, 0 ≤ Z i ω := by
    by_contra hno
    exact hωB (hB1 hno)
  obtain ⟨M, hM⟩ := plenty_eventually hωi (10000 * k * (p.agents.length + p.tasks.length))
  refine ⟨max M n, fun fuel fuel' M' hN hk' hM' result hres => ?_⟩
  obtain ⟨vs, rest, hne, -, hruns, -, habort⟩ := h fuel hN fuel' hk' _ (hM M' (le_of_max_le_left hM')) (fun vs _ _ _ _ _ => hmore vs)
    (fun vs _ _ hl => hstop vs hl) result hres
  refine habort ?_
  obtain ⟨v, hv, hc⟩ := hall (fun i => Z i ω) hω
  obtain ⟨d, rfl⟩ := Nat.exists_eq_add_of_le (le_of_max_le_right hM')
  cases vs with
  | nil => exact absurd hne (by simp)
  | cons u us =>
    obtain ⟨mid, sim, sim', hsim, hcall, -⟩ := runs_uncons hruns
    obtain ⟨sim'', hc⟩ := hc sim hsim (firsts d (shift n fun i => Z i ω))
    rw [← firsts_append] at hc
    have : sim.call E s (firsts (n + d) fun i => Z i ω) = ok (some (u, mid, sim')) := hcall
    rw [hc] at this
    cases this
    exact ⟨_, by simp, hv⟩

/-- Standard normal numbers can be in every interval. -/
theorem normals_wide : WideNumbers normals (fun i ω => ω i) where
  toRandomNumbers := normals_random
  wide := by
    intro a b hab h0
    have h1 : normals.map (fun ω => ω 0) = gaussianReal 0 1 := (measurePreserving_eval_infinitePi (fun _ : Nat => gaussianReal 0 1) 0).map_eq
    have h2 : gaussianReal 0 1 (Set.Ioo a b) = 0 := by
      rw [← h1, Measure.map_apply (measurable_pi_apply 0) measurableSet_Ioo]
      exact h0
    have h3 := gaussianReal_absolutelyContinuous' 0 one_ne_zero h2
    rw [Real.volume_Ioo, ENNReal.ofReal_eq_zero] at h3
    linarith

namespace Solo

/-- The duration of the task is uncertain. -/
theorem uncertain : Uncertain project schedule := Or.inl ⟨_, List.mem_singleton.2 rfl, by decide⟩

/-- C106 applies to one task that takes between 60 and 100 seconds: without numbers outside of ±2, runs take between 60 and 100 seconds; -/
example : ∃ (sp : ScheduleParams ℝ) (start finish start' finish' : Nat → ℝ) (best worst : ℝ), toScheduleParams FloatEnv.real project = ok sp ∧
    Earliest FloatEnv.real { sp with agentPerformance := [1], taskDuration := [(60 : Int)] } schedule start finish ∧ IsEnd schedule finish best ∧
    Earliest FloatEnv.real { sp with agentPerformance := [1], taskDuration := [(100 : Int)] } schedule start' finish' ∧ IsEnd schedule finish' worst ∧
    ∀ vs zs rest, (∀ z ∈ zs, |z| ≤ 2) → Runs FloatEnv.real project schedule vs zs rest → ∀ v ∈ vs, best < v + 1 ∧ v ≤ worst := by
  obtain ⟨sp, hsp, hw⟩ := params_wellFormed (E := FloatEnv.real) sound (fun _ _ _ _ => rfl)
  obtain ⟨start, finish, best, start', finish', worst, h⟩ := runs_within_partial (fun _ => rfl) sound hsp (schedule_valid hsp) bounds
  exact ⟨sp, start, finish, start', finish', best, worst, hsp, h⟩

/-- with standard normal numbers, some runs take longer than any given time, -/
example : ∀ᵐ ω ∂normals, ∃ r, ResultsOf FloatEnv.real project schedule (fun i => ω i) r ∧ ∀ x, ∃ j, x ≤ r j := by
  obtain ⟨sp, hsp, hw⟩ := params_wellFormed (E := FloatEnv.real) sound (fun _ _ _ _ => rfl)
  obtain ⟨_, _, _, _, h⟩ := runs_unbounded (fun _ => rfl) sound hsp (schedule_valid hsp) uncertain normals_wide
  exact h

theorem moderate : project.Moderate where
  longer := by
    refine ⟨_, List.mem_singleton.2 rfl, ?_⟩
    intro x hx q hq
    simp only [project, List.mem_singleton] at hx
    subst hx
    cases hq
    decide +kernel
  shorter := by
    intro x hx q hq
    simp only [project, List.mem_singleton] at hx
    subst hx
    cases hq
    decide +kernel

open CommandLine

/-- and the program without a command may abort. -/
example (draws : Nat → Nat → Nat → Draws ℝ) : ∃ (o : Cli.Options ℝ) (N : Nat) (A : Set (Nat → ℝ)),
    parse FloatEnv.real exampleRead (fun f => f == "plan.yml") true .predict { input := "plan.yml" } = .accepted o ∧
    MeasurableSet A ∧ normals A ≠ 0 ∧ ∀ ω ∈ A, ∃ M, ∀ fuel fuel' M', N ≤ fuel → 1 ≤ fuel' → M ≤ M' →
      status (body FloatEnv.real { Steady.machine draws with source := .doc plan, fuel := fuel, fuel' := fuel', zs := (List.range M').map fun i => ω i }
        .predict o).flow = .aborted .range := by
  have hpar := options_as_given (E := FloatEnv.real) (isFile := fun f => f == "plan.yml") (terminal := true) (c := .predict)
    (a := { input := "plan.yml" }) exampleRead_naturals (by decide) (batch := 10000) (idle := 100000) (window := 100) (period := 256)
    (Or.inl ⟨rfl, rfl⟩) (Or.inl ⟨rfl, rfl⟩) (Or.inl ⟨rfl, rfl⟩) (Or.inl ⟨rfl, rfl⟩)
    (Or.inl ⟨rfl, rfl⟩) (Or.inl ⟨rfl, rfl⟩) (Or.inl ⟨rfl, rfl⟩)
  obtain ⟨sp, hsp, hw⟩ := params_wellFormed (E := FloatEnv.real) sound (fun _ _ _ _ => rfl)
  obtain ⟨hval, hfile, hout⟩ := accepted_options_partial (Or.inl fun _ => rfl) exampleRead_signs (by decide) hpar (by simp) (by simp) (by simp) hw
  obtain ⟨N, A, h1, h2, h3⟩ := prediction_may_abort (m := { Steady.machine draws with source := .doc plan }) (k := 1) (fun _ => rfl)
    hfile hout rfl plan_loads sound moderate ⟨⟨rfl, rfl⟩, fun _ => ⟨fun _ => rfl, fun _ => Or.inr (by exact (by decide : 9 ≤ 80))⟩⟩
    (by exact (by decide : 0 < 4)) hsp hval (by simp) le_rfl (by norm_num) (fun _ => ⟨_, rfl⟩) (fun _ _ => rfl)
    (Or.inl ⟨_, List.mem_singleton.2 rfl, by decide⟩) normals_wide
  refine ⟨_, N, A, hpar, h1, h2, fun ω hω => ?_⟩
  obtain ⟨M, h4⟩ := h3 ω hω
  exact ⟨M, fun fuel fuel' M' a b c => (h4 fuel fuel' M' a b c _ rfl).1⟩

end Solo

/-- With the example document `plan` and a generator that always yields 1, the program ends well: every run fits. -/
example (draws : Nat → Nat → Nat → Draws ℚ) : ∃ N, ∀ fuel, N ≤ fuel → ∀ fuel', 1 ≤ fuel' → status (body FloatEnv.rat { exampleMachine draws with
      fuel := fuel, fuel' := fuel', zs := List.replicate 1000000 1 } .predict cliOptions).flow = .exit 0 := by
  obtain ⟨sp, hsp, hw⟩ := params_wellFormed (E := FloatEnv.rat) plan_sound (fun _ _ _ _ => rfl)
  obtain ⟨N, s, _, h⟩ := worst_case_fits_partial (m := exampleMachine draws) (k := 1)
    (fun _ => rfl) (by decide) (by decide) rfl Sample.plan_loads plan_sound plan_moderate example_canWrite
    (by exact (by decide : 0 < 4)) hsp (cliOptions_valid hw) (by intro b hb; cases hb)
    le_rfl (by norm_num) (by
      intro a ha q hq
      simp only [Sample.project, List.mem_cons, List.not_mem_nil, or_false] at ha
      rcases ha with rfl | rfl <;> cases hq <;> decide +kernel)
  refine ⟨N, fun fuel hN fuel' hf => ?_⟩
  exact (h fuel hN fuel' hf (List.replicate 1000000 1) (by
    intro z hz
    rw [List.eq_of_mem_replicate hz]
    norm_num) (by
    rw [List.countP_replicate, if_pos (by decide)]
    exact (by decide : 10000 * 1 * (Sample.project.agents.length + Sample.project.tasks.length) ≤ 1000000)) (fun _ _ _ _ _ _ => ⟨_, rfl⟩)
    (fun _ _ _ _ => rfl) _ rfl).1

end
end Angonoka.Props
