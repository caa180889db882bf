import Verif.Proof.MakespanBounds
import Verif.Proof.Examples

/-!
# C24-C28: the makespan estimator

All the theorems hold for every floating-point environment (every monotone rounding) unless exact
arithmetic is mentioned, and for every estimator, whatever it has evaluated before.
-/

namespace Angonoka.Props
open Angonoka Outcome Stun

variable {K : Type} [Field K] [LinearOrder K] [IsStrictOrderedRing K]

/-- C24. The makespan of a valid schedule is the end of a feasible execution. -/
theorem makespan_feasible (E : FloatEnv K) {p : ScheduleParams K} (hp : WellFormed p)
    {s : List Item} (hs : ValidSchedule p s) {m : Makespan K} (hm : EstimatorFor E p m) :
    ∃ v m', m.call E s = ok (v, m') ∧
      ∃ start finish, Execution E p s start finish ∧ IsEnd s finish v := by
  obtain ⟨m', h, _⟩ := call_valid (E := E) hp hm.shape hs
  obtain ⟨start, finish, h1, h2, _⟩ := makespanValue_spec (E := E) hp hs
  exact ⟨_, m', h, start, finish, h1, h2⟩

/-- C25. There is one execution that is at least as fast as any other for every single task, and the
estimator returns its end; so no execution ends before the makespan. -/
theorem makespan_minimal (E : FloatEnv K) {p : ScheduleParams K} (hp : WellFormed p)
    {s : List Item} (hs : ValidSchedule p s) {m : Makespan K} (hm : EstimatorFor E p m) :
    ∃ v m', m.call E s = ok (v, m') ∧
      (∃ start finish, Execution E p s start finish ∧ IsEnd s finish v ∧
        ∀ start' finish', Execution E p s start' finish' →
          ∀ it ∈ s, start it.task ≤ start' it.task ∧ finish it.task ≤ finish' it.task) ∧
      ∀ start' finish' v', Execution E p s start' finish' → IsEnd s finish' v' → v ≤ v' := by
  obtain ⟨m', h, _⟩ := call_valid (E := E) hp hm.shape hs
  obtain ⟨start, finish, h1, h2, _, h3⟩ := makespanValue_spec (E := E) hp hs
  refine ⟨_, m', h, ⟨start, finish, h1, h2, h3⟩, ?_⟩
  intro start' finish' v' h4 h5
  obtain ⟨it, hit, hv⟩ := h2.2
  rw [← hv]
  exact ((h3 start' finish' h4 it hit).2).trans (h5.1 it hit)

/-- C26. Any two estimators for the same parameters, whatever they evaluated before, give the
same result for every schedule, valid or not. -/
theorem makespan_history_free (E : FloatEnv K) {p : ScheduleParams K} {m₁ m₂ : Makespan K}
    (h₁ : EstimatorFor E p m₁) (h₂ : EstimatorFor E p m₂) (s : List Item) :
    m₁.call E s = m₂.call E s :=
  h₁.shape.call_eq h₂.shape s

/-- C27, lower bounds: for each agent the time of all of its tasks, and for each chain of
dependencies the time of its tasks (each is added up in `float`s from left to right). -/
theorem makespan_lower_bounds (E : FloatEnv K) {p : ScheduleParams K} (hp : WellFormed p)
    {s : List Item} (hs : ValidSchedule p s) {m : Makespan K} (hm : EstimatorFor E p m)
    {v : K} {m' : Makespan K} (hv : m.call E s = ok (v, m')) :
    (∀ a, E.sum ((s.filter fun it => it.agent = a).map (p.itemTime E)) ≤ v) ∧
    (∀ chain : List Item, (∀ it ∈ chain, it ∈ s) →
      chain.IsChain (fun a b => a.task ∈ p.deps b.task) →
      E.sum (chain.map (p.itemTime E)) ≤ v) := by
  obtain ⟨m'', h, _⟩ := call_valid (E := E) hp hm.shape hs
  rw [hv] at h
  cases h
  obtain ⟨start, finish, hex, hend, _, _⟩ := makespanValue_spec (E := E) hp hs
  have h0 := makespanValue_nonneg (E := E) hp hs
  constructor
  · intro a
    apply foldl_add_le (s := s) hex (fun it hit => List.mem_of_mem_filter hit) hend.1 _ h0
    · intro it hit
      have : it ∈ s.filter fun it => it.agent = a := List.mem_of_mem_head? hit
      exact hex.nonneg it (List.mem_of_mem_filter this)
    · apply List.Pairwise.isChain
      have h1 := hex.agents.sublist (List.filter_sublist (p := fun it => it.agent = a))
      refine h1.imp_of_mem ?_
      intro x y hx hy hxy
      have hx := (List.mem_filter.1 hx).2
      have hy := (List.mem_filter.1 hy).2
      simp only [decide_eq_true_eq] at hx hy
      exact hxy (hx.trans hy.symm)
  · intro chain hc hch
    apply foldl_add_le (s := s) hex hc hend.1 _ h0
    · intro it hit
      exact hex.nonneg it (hc it (List.mem_of_mem_head? hit))
    · rw [List.isChain_iff_getElem] at hch ⊢
      intro i hi
      exact hex.deps _ (hc _ (List.getElem_mem _)) _ (hch i hi)

theorem makespanValue_le_sum (E : FloatEnv K) {p : ScheduleParams K} (hp : WellFormed p) {s : List Item} (hs : ValidSchedule p s) :
    makespanValue E p p.agentCount s ≤ E.sum (s.map (p.itemTime E)) := by
  have h1 := (runF_le_sum (E := E) hp.perf_pos hp.dur_nonneg (s := s) (f := fun _ => 0)
    (w := fun _ => 0) (acc := 0) le_rfl E.rnd_zero (fun _ => le_rfl) (fun _ => le_rfl)).2
  by_cases hm0 : List.range p.agentCount = []
  · have h2 := h1 0
    have h3 := makespanValue_nonneg (E := E) hp hs
    obtain ⟨a, ha⟩ := List.exists_mem_of_ne_nil _ (hp.avail_ne 0 hp.tasks_pos)
    have := hp.avail_lt 0 hp.tasks_pos a ha
    rw [List.range_eq_nil] at hm0
    omega
  · have := maxOf_mem (l := (List.range p.agentCount).map (runF E p s (fun _ => 0) fun _ => 0).2)
      (by simpa using hm0)
    obtain ⟨a, _, ha⟩ := List.mem_map.1 this
    unfold makespanValue
    rw [← ha]
    exact h1 a

/-- C27, upper bound: the time of all tasks one after the other. -/
theorem makespan_upper_bound (E : FloatEnv K) {p : ScheduleParams K} (hp : WellFormed p)
    {s : List Item} (hs : ValidSchedule p s) {m : Makespan K} (hm : EstimatorFor E p m)
    {v : K} {m' : Makespan K} (hv : m.call E s = ok (v, m')) :
    v ≤ E.sum (s.map (p.itemTime E)) := by
  obtain ⟨m'', h, _⟩ := call_valid (E := E) hp hm.shape hs
  rw [hv] at h
  cases h
  exact makespanValue_le_sum E hp hs

/-- C27 in exact arithmetic: ordinary sums. -/
theorem makespan_bounds_exact (E : FloatEnv K) (hE : E.IsExact) {p : ScheduleParams K}
    (hp : WellFormed p) {s : List Item} (hs : ValidSchedule p s) {m : Makespan K}
    (hm : EstimatorFor E p m) {v : K} {m' : Makespan K} (hv : m.call E s = ok (v, m')) :
    (∀ a, ((s.filter fun it => it.agent = a).map (p.itemTime E)).sum ≤ v) ∧
    (∀ chain : List Item, (∀ it ∈ chain, it ∈ s) →
      chain.IsChain (fun a b => a.task ∈ p.deps b.task) →
      (chain.map (p.itemTime E)).sum ≤ v) ∧
    v ≤ (s.map (p.itemTime E)).sum := by
  have h1 := makespan_lower_bounds E hp hs hm hv
  have h2 := makespan_upper_bound E hp hs hm hv
  simp only [hE.sum_eq] at h1 h2
  exact ⟨h1.1, h1.2, h2⟩

/-- C28. Longer tasks or slower agents never shorten the makespan of a schedule. -/
theorem makespan_monotone (E : FloatEnv K) {p p' : ScheduleParams K} (hp : WellFormed p)
    (h : p.Slower p') (hpos : ∀ x ∈ p'.agentPerformance, 0 < x)
    {s : List Item} (hs : ValidSchedule p s)
    {m m' : Makespan K} (hm : EstimatorFor E p m) (hm' : EstimatorFor E p' m') :
    ∃ v v' n n', m.call E s = ok (v, n) ∧ m'.call E s = ok (v', n') ∧ v ≤ v' := by
  have hp' := hp.slower h hpos
  have hs' := hs.slower h
  obtain ⟨n, h1, _⟩ := call_valid (E := E) hp hm.shape hs
  obtain ⟨n', h2, _⟩ := call_valid (E := E) hp' hm'.shape hs'
  refine ⟨_, _, n, n', h1, h2, ?_⟩
  have hm : p'.agentCount = p.agentCount := h.performance.length_eq.symm
  unfold makespanValue
  rw [hm]
  apply maxOf_map_le
  intro a _
  refine (runF_slower h hp.dur_nonneg hpos ?_ (fun _ => le_rfl) (fun _ => le_rfl)).2 a
  intro it hit
  exact hp'.avail_lt it.task (hs'.task_lt hit) _ (hs'.eligible it hit)

/-! ### Examples: the hypotheses are met by a concrete project -/

/-- An estimator for the example project. -/
def exampleEstimator : Makespan ℚ :=
  { params := Example.params, taskDone := [0, 0, 0], workDone := [0, 0] }

theorem exampleEstimator_ok : EstimatorFor FloatEnv.rat Example.params exampleEstimator :=
  .new (by decide)

example : ∃ v m', exampleEstimator.call FloatEnv.rat Example.schedule = ok (v, m') ∧
      ∃ start finish, Execution FloatEnv.rat Example.params Example.schedule start finish ∧
        IsEnd Example.schedule finish v :=
  makespan_feasible _ Example.params_wellFormed Example.schedule_valid exampleEstimator_ok

/-- The makespan of the example schedule is 6: task 0 takes agent 0 from 0 to 2, task 2 from 2 to 6. -/
example : exampleEstimator.call FloatEnv.rat Example.schedule
    = ok (6, { exampleEstimator with taskDone := [2, 3/2, 6], workDone := [6, 3/2] }) := by
  decide +kernel

/-- A slower variant of the example project. -/
def slowerParams : ScheduleParams ℚ :=
  { Example.params with agentPerformance := [1/2, 2], taskDuration := [2, 5, 4] }

example : Example.params.Slower slowerParams where
  deps := rfl
  avail := rfl
  durations := by
    refine .cons (by decide +kernel) (.cons (by decide +kernel) (.cons (by decide +kernel) .nil))
  performance := by
    refine .cons (by decide +kernel) (.cons (by decide +kernel) .nil)

end Angonoka.Props
