import Verif.Proof.Params
import Verif.Proof.Scaling
import Verif.Proof.MakespanBounds
import Verif.Props.Schedule

/-!
# C11, C18, C19: from a project to schedule parameters
-/

set_option linter.unusedSectionVars false

namespace Angonoka.Props
open Angonoka Outcome Stun

variable {K : Type} [Field K] [LinearOrder K] [IsStrictOrderedRing K]

/-- C11. The eligibility rule. -/
theorem eligibility {a : Agent} {t : Task} (ha : IndexSet.Sorted a.groupIds)
    (ht : IndexSet.Sorted t.groupIds) : canWorkOn a t = true ↔ Eligible a t :=
  canWorkOn_iff ha ht

/-- C18. The parameters list for every task exactly the eligible agents and the dependencies, both in
ascending order, and for every agent the mean of the bounds of its performance. -/
theorem params_faithful {E : FloatEnv K} {p : Project} {sp : ScheduleParams K}
    (ha : ∀ a ∈ p.agents, IndexSet.Sorted a.groupIds)
    (ht : ∀ t ∈ p.tasks, IndexSet.Sorted t.groupIds)
    (h : toScheduleParams E p = ok sp) :
    sp.taskCount = p.tasks.length ∧ sp.agentCount = p.agents.length ∧
    sp.availableAgents.size = p.tasks.length ∧ sp.dependencies.size = p.tasks.length ∧
    (∀ (i : Nat) (t : Task), p.tasks[i]? = some t →
      (∀ k, k ∈ sp.avail i ↔ ∃ a, p.agents[k]? = some a ∧ Eligible a t) ∧
      (sp.avail i).Pairwise (· < ·) ∧ sp.deps i = t.dependencies) ∧
    (∀ (k : Nat) (a : Agent), p.agents[k]? = some a → ∃ lo hi : ℚ, a.PerformanceOk lo hi ∧
      sp.agentPerformance[k]? = some (E.rnd (E.rnd ((lo : K) + hi) / 2))) := by
  obtain ⟨_, _, _, hperf, havail, hdeps, _, hdur⟩ := toScheduleParams_ok h
  have hperf' := mapM_eq_ok hperf
  refine ⟨?_, hperf'.length_eq.symm, ?_, ?_, ?_, ?_⟩
  · simp [ScheduleParams.taskCount, hdur]
  · simp [havail, Vector2D.size, Vector2D.ofSizes, spansOf_length]
  · simp [hdeps, Vector2D.size, Vector2D.ofSizes, spansOf_length]
  · intro i t hi
    have hrow : sp.avail i = eligible t 0 p.agents := by
      unfold ScheduleParams.avail
      rw [havail, row_ofSizes]
      simp [List.getD_eq_getElem?_getD, hi]
    refine ⟨?_, ?_, ?_⟩
    · intro k
      rw [hrow, mem_eligible]
      constructor
      · rintro ⟨j, a, h1, h2, h3⟩
        have : k = j := by omega
        subst this
        exact ⟨a, h2, (canWorkOn_iff (ha a (List.mem_of_getElem? h2))
          (ht t (List.mem_of_getElem? hi))).1 h3⟩
      · rintro ⟨a, h2, h3⟩
        exact ⟨k, a, by omega, h2, (canWorkOn_iff (ha a (List.mem_of_getElem? h2))
          (ht t (List.mem_of_getElem? hi))).2 h3⟩
    · rw [hrow]
      exact eligible_sorted _ _ _
    · unfold ScheduleParams.deps
      rw [hdeps, row_ofSizes]
      simp [List.getD_eq_getElem?_getD, hi]
  · intro k a hk
    obtain ⟨hlt, hka⟩ := List.getElem?_eq_some_iff.1 hk
    have hlt' : k < sp.agentPerformance.length := hperf'.length_eq ▸ hlt
    have := List.Forall₂.get hperf' hlt hlt'
    rw [List.get_eq_getElem, hka] at this
    obtain ⟨lo, hi, h1, h2⟩ := averagePerformance_ok this
    refine ⟨lo, hi, h1, ?_⟩
    rw [List.getElem?_eq_getElem hlt']
    exact congrArg some h2

/-- C18: whatever the rounding, the mean performance lies between the bounds. -/
theorem params_performance_between {E : FloatEnv K} {p : Project} {sp : ScheduleParams K}
    (h : toScheduleParams E p = ok sp) (hf : p.FloatsIn E) {k : Nat} {a : Agent} {lo hi : ℚ}
    (hk : p.agents[k]? = some a) (hp : a.PerformanceOk lo hi) :
    ∃ x, sp.agentPerformance[k]? = some x ∧ (lo : K) ≤ x ∧ x ≤ (hi : K) := by
  obtain ⟨_, _, _, hperf, _⟩ := toScheduleParams_ok h
  have hperf' := mapM_eq_ok hperf
  obtain ⟨hlt, hka⟩ := List.getElem?_eq_some_iff.1 hk
  have hlt' : k < sp.agentPerformance.length := hperf'.length_eq ▸ hlt
  have hget := List.Forall₂.get hperf' hlt hlt'
  rw [List.get_eq_getElem, hka, averagePerformance_eq hp] at hget
  have hmem := List.mem_of_getElem? hk
  refine ⟨_, List.getElem?_eq_getElem hlt', ?_⟩
  have hx : sp.agentPerformance[k] = meanPerformance E lo hi := by
    injection hget with hget
    exact hget.symm
  rw [hx]
  exact meanPerformance_mem hp.2.2.2 (hf a hmem lo (Or.inl hp.1)) (hf a hmem hi (Or.inr hp.2.1))

/-- C18: a sound project has schedule parameters, and they are well-formed, which is what every
theorem about schedules and optimization assumes. -/
theorem params_wellFormed {E : FloatEnv K} {p : Project} (hp : p.Sound) (hf : p.FloatsIn E) :
    ∃ sp, toScheduleParams E p = ok sp ∧ WellFormed sp := by
  obtain ⟨sp, h⟩ := toScheduleParams_exists (E := E) hp.agents_ne hp.tasks_ne hp.durations
    hp.performance
  refine ⟨sp, h, ?_⟩
  obtain ⟨h1, h2, h3, h4, h5, h6⟩ := params_faithful hp.agent_groups hp.task_groups h
  have hget : ∀ t < sp.taskCount, ∃ x, p.tasks[t]? = some x := by
    intro t ht
    rw [h1] at ht
    exact ⟨_, List.getElem?_eq_getElem ht⟩
  have hneeds : ∀ t d, sp.Needs t d → p.DependsOn t d := by
    intro t d hd
    obtain ⟨x, hx⟩ := hget t hd.1
    refine ⟨x, hx, ?_⟩
    rw [← (h5 t x hx).2.2]
    exact hd.2
  refine ⟨?_, h4.trans h1.symm, h3.trans h1.symm, ?_, ?_, ?_, ?_, ?_, ?_, ?_⟩
  · rw [h1]
    exact List.length_pos_iff.2 hp.tasks_ne
  · intro t ht d hd
    obtain ⟨x, hx⟩ := hget t ht
    rw [(h5 t x hx).2.2] at hd
    rw [h1]
    exact hp.deps_lt x (List.mem_of_getElem? hx) d hd
  · intro t ht
    obtain ⟨x, hx⟩ := hget t ht
    rw [(h5 t x hx).2.2]
    exact hp.deps_sorted x (List.mem_of_getElem? hx)
  · intro t ht
    exact hp.acyclic t (Relation.TransGen.mono (fun a b => hneeds a b) t t ht)
  · intro t ht
    obtain ⟨x, hx⟩ := hget t ht
    obtain ⟨a, ha, he⟩ := hp.assignable x (List.mem_of_getElem? hx)
    obtain ⟨k, hk, hka⟩ := List.getElem_of_mem ha
    exact List.ne_nil_of_mem (((h5 t x hx).1 k).2
      ⟨a, by rw [List.getElem?_eq_getElem hk, hka], he⟩)
  · intro t ht k hk
    obtain ⟨x, hx⟩ := hget t ht
    obtain ⟨a, ha, _⟩ := ((h5 t x hx).1 k).1 hk
    rw [h2]
    exact (List.getElem?_eq_some_iff.1 ha).1
  · intro x hx
    obtain ⟨k, hk, hkx⟩ := List.getElem_of_mem hx
    have hk' : k < p.agents.length := h2 ▸ hk
    obtain ⟨lo, hi, hok⟩ := hp.performance _ (List.getElem_mem hk')
    obtain ⟨y, hy, hle, _⟩ := params_performance_between h hf (List.getElem?_eq_getElem hk') hok
    rw [List.getElem?_eq_getElem hk, hkx] at hy
    cases hy
    have : (0 : K) < lo := by exact_mod_cast hok.2.2.1
    exact lt_of_lt_of_le this hle
  · intro x hx
    obtain ⟨_, _, hdur, _, _, _, hm, hd⟩ := toScheduleParams_ok h
    have hnn : ∀ d ∈ p.tasks.map fun t => E.ofInt t.meanDuration, (0 : K) ≤ d := by
      intro d hd
      obtain ⟨t, ht, rfl⟩ := List.mem_map.1 hd
      apply E.rnd_nonneg
      have := hdur t ht
      have h0 : 0 ≤ t.meanDuration := by
        unfold Task.meanDuration
        have h1 := this.1
        have h2 := this.2
        omega
      exact_mod_cast h0
    have hsum : ∀ (l : List K) (x : K), 0 ≤ x → (∀ d ∈ l, 0 ≤ d) → 0 ≤ l.foldl E.add x := by
      intro l
      induction l with
      | nil => intro x hx _; exact hx
      | cons d l ih =>
        intro x hx hl
        exact ih _ (E.rnd_nonneg (add_nonneg hx (hl d (by simp)))) (fun d hd => hl d (by simp [hd]))
    have hmult : 0 ≤ sp.durationMultiplier := by
      rw [hm]
      apply E.rnd_nonneg
      apply div_nonneg (hsum _ _ le_rfl hnn)
      apply E.rnd_nonneg
      simp
    rw [hd] at hx
    obtain ⟨d, hd', rfl⟩ := List.mem_map.1 hx
    exact E.rnd_nonneg (div_nonneg (hnn d hd') hmult)

/-! ### C19: normalisation -/

/-- The same parameters with durations in seconds. -/
def inSeconds (p : Project) (sp : ScheduleParams K) : ScheduleParams K :=
  { sp with taskDuration := p.tasks.map fun t => (t.meanDuration : K) }

theorem meanDuration_pos {t : Task} (h : t.DurationOk) : 0 < t.meanDuration := by
  have h1 := h.1
  have h2 := h.2
  unfold Task.meanDuration
  omega

/-- Facts about exact normalisation. -/
theorem normalisation {E : FloatEnv K} (hE : E.IsExact) {p : Project} {sp : ScheduleParams K}
    (h : toScheduleParams E p = ok sp) :
    0 < sp.durationMultiplier ∧
    sp.durationMultiplier = (p.tasks.map fun t => (t.meanDuration : K)).sum / p.agents.length ∧
    sp.taskDuration = p.tasks.map fun t => (t.meanDuration : K) / sp.durationMultiplier := by
  obtain ⟨ha, ht, hdur, _, _, _, hm, hd⟩ := toScheduleParams_ok h
  have hfold : ∀ (l : List K) (x : K), l.foldl E.add x = x + l.sum := by
    intro l
    induction l with
    | nil => intro x; simp
    | cons d l ih =>
      intro x
      simp only [List.foldl_cons, ih, List.sum_cons, FloatEnv.add, hE _, add_assoc]
  have hm' : sp.durationMultiplier
      = (p.tasks.map fun t => (t.meanDuration : K)).sum / p.agents.length := by
    rw [hm, hfold]
    simp [FloatEnv.div, FloatEnv.ofInt, hE _]
  refine ⟨?_, hm', ?_⟩
  · rw [hm']
    apply div_pos
    · apply List.sum_pos
      · intro d hd
        obtain ⟨t, ht, rfl⟩ := List.mem_map.1 hd
        exact_mod_cast meanDuration_pos (hdur t ht)
      · simpa using ht
    · exact_mod_cast List.length_pos_iff.2 ha
  · rw [hd]
    simp [FloatEnv.div, FloatEnv.ofInt, hE _, Function.comp_def]

/-- C19: the normalised durations add up to the number of agents. -/
theorem normalised_sum {E : FloatEnv K} (hE : E.IsExact) {p : Project} {sp : ScheduleParams K}
    (h : toScheduleParams E p = ok sp) : sp.taskDuration.sum = p.agents.length := by
  obtain ⟨h0, hm, hd⟩ := normalisation hE h
  have hsum : sp.taskDuration.sum
      = (p.tasks.map fun t => (t.meanDuration : K)).sum / sp.durationMultiplier := by
    rw [hd]
    generalize sp.durationMultiplier = c
    induction p.tasks with
    | nil => simp
    | cons t ts ih => simp only [List.map_cons, List.sum_cons, ih, add_div]
  have hne : (p.tasks.map fun t => (t.meanDuration : K)).sum ≠ 0 := by
    intro h'
    rw [hm, h', zero_div] at h0
    exact lt_irrefl _ h0
  rw [hsum, hm, div_div_cancel₀ hne]

/-- C19: for every schedule, valid or not, evaluating it with normalised durations and multiplying by
`duration_multiplier` gives what evaluating it with durations in seconds gives. -/
theorem normalised_makespan {E : FloatEnv K} (hE : E.IsExact) {p : Project} {sp : ScheduleParams K}
    (h : toScheduleParams E p = ok sp) {m n : Makespan K} (hm : EstimatorFor E sp m)
    (hn : EstimatorFor E (inSeconds p sp) n) (s : List Item) :
    (m.call E s >>= fun r => ok (sp.durationMultiplier * r.1)) = (n.call E s >>= fun r => ok r.1) := by
  obtain ⟨h0, _, hd⟩ := normalisation hE h
  have hsc : sp.scale sp.durationMultiplier = inSeconds p sp := by
    unfold ScheduleParams.scale inSeconds
    congr 1
    rw [hd, List.map_map]
    apply List.map_congr_left
    intro t _
    simp only [Function.comp_apply]
    field_simp
  have hs := hm.shape
  have hn' : MakespanShape (inSeconds p sp) ⟨inSeconds p sp, m.taskDone, m.workDone⟩ := by
    refine ⟨rfl, ?_, hs.agents⟩
    have := hs.tasks
    simp only [hd] at this
    simpa [inSeconds, ScheduleParams.taskCount] using this
  rw [hn.shape.call_eq hn' s, ← hsc, call_scale hE h0.le]
  obtain ⟨mp, td, wd⟩ := m
  have hmp : mp = sp := hs.params
  subst hmp
  rfl

/-! ### Example -/

/-- Two agents (the second in a group), two tasks; the second task needs the group and the first task. -/
def exampleProject : Project where
  groups := ["g"]
  agents := [{ id := 0, name := "a", perfMin := .fin 1, perfMax := .fin 3 },
    { id := 1, name := "b", groupIds := [0] }]
  tasks := [{ name := "s", durMin := 10, durMax := 21 },
    { name := "t", groupIds := [0], dependencies := [0], durMin := 5, durMax := 5 }]

theorem exampleProject_sound : exampleProject.Sound where
  agents_ne := by decide
  tasks_ne := by decide
  ids := by
    intro i a h
    match i, h with
    | 0, h => cases h; rfl
    | 1, h => cases h; rfl
    | i + 2, h => cases h
  agent_groups := by unfold IndexSet.Sorted; decide
  task_groups := by unfold IndexSet.Sorted; decide
  performance := by
    intro a ha
    simp only [exampleProject, List.mem_cons, List.not_mem_nil, or_false] at ha
    rcases ha with rfl | rfl
    · exact ⟨1, 3, rfl, rfl, by norm_num, by norm_num⟩
    · exact ⟨1, 1, rfl, rfl, by norm_num, by norm_num⟩
  durations := by unfold Task.DurationOk; decide
  deps_sorted := by unfold IndexSet.Sorted; decide
  deps_lt := by decide
  acyclic := by
    have h1 : ∀ i d, exampleProject.DependsOn i d → d < i := by
      rintro i d ⟨t, ht, hd⟩
      match i, ht with
      | 0, ht => cases ht; cases hd
      | 1, ht => cases ht; simp only [List.mem_singleton] at hd; omega
      | i + 2, ht => cases ht
    have h2 : ∀ i d, Relation.TransGen exampleProject.DependsOn i d → d < i := by
      intro i d h
      induction h with
      | single h => exact h1 _ _ h
      | tail _ h ih => exact (h1 _ _ h).trans ih
    exact fun i h => lt_irrefl _ (h2 i i h)
  assignable := by
    intro t ht
    refine ⟨_, List.mem_cons_self, ?_⟩
    simp only [exampleProject, List.mem_cons, List.not_mem_nil, or_false] at ht
    rcases ht with rfl | rfl <;> exact Or.inr ⟨rfl, Or.inl rfl⟩

example : ∃ sp, toScheduleParams FloatEnv.rat exampleProject = ok sp ∧ WellFormed sp :=
  params_wellFormed exampleProject_sound (fun _ _ _ _ => rfl)

example : toScheduleParams FloatEnv.rat exampleProject = ok
    { agentPerformance := [2, 1], taskDuration := [3/2, 1/2],
      availableAgents := Vector2D.ofSizes [0, 0, 1] [1, 2],
      dependencies := Vector2D.ofSizes [0] [0, 1], durationMultiplier := 10 } := by
  decide +kernel

end Angonoka.Props
