import Verif.Proof.Termination
import Verif.Proof.Interleaving
import Verif.Proof.Rebind
import Verif.Proof.Examples

/-!
# C37-C42: the optimizer

`ValidOptions` (in `Verif.Spec.Optimizer`) are the documented ranges of the options, for a schedulable
project; `OptimizerRun` are all histories of updates, resets and copies.
-/

set_option linter.unusedSectionVars false

namespace Angonoka.Props
open Angonoka Outcome Stun

variable {K : Type} [Field K] [LinearOrder K] [IsStrictOrderedRing K]
variable {E : FloatEnv K} {opts : Options K} {threads : Nat} {ms : List K} {o : Optimizer K}

/-- Constructing an optimizer with valid options succeeds, and after any history updates (with any
random numbers), resets and copies succeed and keep the number of jobs. -/
theorem optimizer_no_violation (ho : ValidOptions E opts) :
    (0 < threads → ∃ o, Optimizer.new E opts threads = ok o) ∧
    (OptimizerRun E opts threads ms o →
      (∀ draws, ∃ o', o.update E draws = ok o' ∧ o'.jobs.length = threads) ∧
      (∃ o', o.reset E = ok o' ∧ o'.jobs.length = threads) ∧
      (∃ o', o.copy = ok o' ∧ o'.jobs.length = threads ∧ o'.schedule = o.schedule ∧
        o'.normalizedMakespan = o.normalizedMakespan)) := by
  constructor
  · intro ht
    obtain ⟨o, v, h, _⟩ := Optimizer.new_ok ho ht
    exact ⟨o, h⟩
  · intro hr
    obtain ⟨v, hi⟩ := hr.inv ho
    refine ⟨fun draws => ?_, ?_, ?_⟩
    · obtain ⟨o', v', _, h, h', _⟩ := Optimizer.update_ok ho hi draws
      exact ⟨o', h, h'.len⟩
    · obtain ⟨o', v', h, h'⟩ := Optimizer.reset_ok ho hi
      exact ⟨o', h, h'.len⟩
    · obtain ⟨o', h, h', h''⟩ := Optimizer.copy_ok ho hi
      exact ⟨o', h, h'.len, h'', by rw [h'.makespan_eq ho, hi.makespan_eq ho]⟩

/-- C37. After every round the reported makespan is the least among the jobs as they are after their
batches (`jobs`), all jobs of the optimizer have it, and the reported schedule has it. -/
theorem optimizer_best_of_jobs (ho : ValidOptions E opts) (hr : OptimizerRun E opts threads ms o)
    (draws : Nat → Nat → Draws K) :
    ∃ o' jobs s v, o.update E draws = ok o' ∧ updateJobs E draws 0 o.jobs = ok jobs ∧
      o'.normalizedMakespan = ok v ∧ o'.schedule = ok s ∧ ValidSchedule opts.params s ∧
      IsMakespan E opts.params s v ∧ (∀ j ∈ o'.jobs, j.normalizedMakespan = ok v) ∧
      (∃ j ∈ jobs, j.normalizedMakespan = ok v) ∧
      ∀ j ∈ jobs, ∃ e, j.normalizedMakespan = ok e ∧ v ≤ e := by
  obtain ⟨v, hi⟩ := hr.inv ho
  obtain ⟨o', v', jobs, h1, h2, _, h4, h5, ⟨j, hj, hjv⟩, h7⟩ := Optimizer.update_ok ho hi draws
  obtain ⟨s, hs, hsv, hse⟩ := h2.schedule_eq ho
  refine ⟨o', jobs, s, v', h1, h4, h2.makespan_eq ho, hs, hsv,
    (isMakespan_iff ho.wellFormed hsv).2 hse, ?_, ⟨j, hj, ?_⟩, ?_⟩
  · intro j hj
    rw [(h2.jobs j hj).1.makespan_eq ho, (h2.jobs j hj).2]
  · rw [(h5 j hj).makespan_eq ho, hjv]
  · intro j hj
    exact ⟨_, (h5 j hj).makespan_eq ho, h7 j hj⟩

/-- C37, thread interleavings. The jobs' batches run in parallel; whatever the order in which the
iterations of the different jobs are interleaved, the result is the one of doing the batches one after
the other, which is what `Optimizer.update` does. -/
theorem optimizer_interleaving (ho : ValidOptions E opts) (hr : OptimizerRun E opts threads ms o)
    (draws : Nat → Nat → Draws K) {l : List (Job K × Nat)}
    (h : Relation.ReflTransGen (ParallelStep E draws) (o.jobs.map fun j => (j, 0)) l)
    (hd : ParallelDone l) :
    updateJobs E draws 0 o.jobs = ok (l.map Prod.fst) := by
  obtain ⟨v, hi⟩ := hr.inv ho
  obtain ⟨h1, h2⟩ := interleaved_of_steps h
  apply updateJobs_of_forall
  · simpa using h1
  · intro i j r hj hx
    rw [List.getElem?_map, Option.map_eq_some_iff] at hx
    obtain ⟨x, hx, rfl⟩ := hx
    obtain ⟨g1, g2⟩ := h2 i j x hj hx
    have hdone := hd x (List.mem_of_getElem? hx)
    unfold Job.update
    have hb := (hi.jobs j (List.mem_of_getElem? hj)).1.batch
    rw [expects_true (by simpa [hb] using ho.batch_pos), ok_bind, Nat.zero_add, ← g2, ← hdone]
    exact g1

/-- C37, no interleaving gets stuck: as long as a job has iterations left, it can do the next one. -/
theorem optimizer_interleaving_progress (ho : ValidOptions E opts)
    (hr : OptimizerRun E opts threads ms o) (draws : Nat → Nat → Draws K) {l : List (Job K × Nat)}
    (h : Relation.ReflTransGen (ParallelStep E draws) (o.jobs.map fun j => (j, 0)) l)
    {pre post : List (Job K × Nat)} {x : Job K × Nat} (hl : l = pre ++ x :: post)
    (hx : x.2 < x.1.batchSize) : ∃ j', ParallelStep E draws l (pre ++ (j', x.2 + 1) :: post) := by
  obtain ⟨v, hi⟩ := hr.inv ho
  obtain ⟨h1, h2⟩ := interleaved_of_steps h
  have hlt : pre.length < o.jobs.length := by rw [← h1, hl]; simp
  obtain ⟨g1, g2⟩ := h2 pre.length o.jobs[pre.length] x (List.getElem?_eq_getElem hlt)
    (by simp [hl])
  obtain ⟨j₁, e1, e2, _⟩ := Job.steps_ok ho ((List.range x.2).map (draws pre.length))
    (hi.jobs _ (List.getElem_mem hlt)).1
  rw [g1] at e1
  cases e1
  obtain ⟨j', e3, _⟩ := Job.step_ok ho e2 (draws pre.length x.2)
  refine ⟨j', ?_⟩
  rw [hl]
  exact .step hx e3

/-- C38. The loop `while (!has_converged()) update()` ends, whatever the random numbers are: there is
a number of rounds after which the optimizer has converged for the first time. The bound depends only
on the size of the project, the batch size and the idle limit. -/
theorem optimizer_terminates (ho : ValidOptions E opts) (hr : OptimizerRun E opts threads ms o)
    (draws : Nat → Nat → Nat → Draws K) :
    ∃ n o', o.rounds E draws n = ok o' ∧ o'.hasConverged = true ∧
      (∀ m < n, ∃ o₁, o.rounds E draws m = ok o₁ ∧ o₁.hasConverged = false) ∧
      n ≤ ((opts.params.taskCount * opts.params.agentCount) ^ opts.params.taskCount + 1)
        * ((opts.maxIdleIters + opts.batchSize - 1) / opts.batchSize) := by
  obtain ⟨v, hi⟩ := hr.inv ho
  obtain ⟨n, o', h1, h2, h3, h4⟩ := converges ho draws (o₀ := o) _ 0 hi rfl le_rfl
  simp only [Nat.zero_add] at h2 h4
  refine ⟨n, o', h2, h3, h4, h1.trans ?_⟩
  have e1 := epochsLeft_le ho hi
  have e2 : roundsFor (opts.maxIdleIters - o.idleIters) opts.batchSize
      ≤ roundsFor opts.maxIdleIters opts.batchSize := Nat.div_le_div_right (by omega)
  have e3 := Nat.mul_le_mul_right (roundsFor opts.maxIdleIters opts.batchSize) e1
  rw [Nat.add_mul, Nat.one_mul]
  exact Nat.add_le_add e3 e2

/-- C39. The estimated progress is a number from 0 to 1; it is 1 once the optimizer has converged and
0 before the fifth epoch otherwise. -/
theorem optimizer_progress (ho : ValidOptions E opts) (hr : OptimizerRun E opts threads ms o) :
    0 ≤ o.estimatedProgress ∧ o.estimatedProgress ≤ 1 ∧
      (o.hasConverged = true → o.estimatedProgress = 1) ∧
      (o.hasConverged = false → o.epochs < 5 → o.estimatedProgress = 0) := by
  obtain ⟨v, hi⟩ := hr.inv ho
  unfold Optimizer.estimatedProgress
  refine ⟨?_, ?_, ?_, ?_⟩
  · split
    · exact zero_le_one
    · split
      · exact le_rfl
      · exact hi.prog0
  · split
    · exact le_rfl
    · split
      · exact zero_le_one
      · exact hi.prog1
  · intro h; rw [if_pos h]
  · intro h h'; rw [if_neg (by simp [h]), if_pos h']

/-- C40. After any history the schedule is valid, the reported makespan is its makespan, and it is
at most the makespan of the initial schedule. -/
theorem optimizer_result (ho : ValidOptions E opts) (hr : OptimizerRun E opts threads ms o) :
    ∃ s v s₀ v₀, o.schedule = ok s ∧ o.normalizedMakespan = ok v ∧ ValidSchedule opts.params s ∧
      IsMakespan E opts.params s v ∧ initialSchedule opts.params = ok s₀ ∧
      IsMakespan E opts.params s₀ v₀ ∧ v ≤ v₀ := by
  obtain ⟨v, hi⟩ := hr.inv ho
  obtain ⟨s, h1, h2, h3⟩ := hi.schedule_eq ho
  obtain ⟨s₀, hs₀, hv₀⟩ := initialSchedule_ok ho.wellFormed
  obtain ⟨j, hj, _⟩ := hi.bestJob
  refine ⟨s, v, s₀, valueOf E opts.params s₀, h1, hi.makespan_eq ho, h2,
    (isMakespan_iff ho.wellFormed h2).2 h3, hs₀, (isMakespan_iff ho.wellFormed hv₀).2 rfl, ?_⟩
  rw [← (hi.jobs j hj).2]
  exact (hi.jobs j hj).1.bound s₀ hs₀

/-- C40, second part: the reported makespans never increase from round to round. -/
theorem optimizer_monotone (ho : ValidOptions E opts) (hr : OptimizerRun E opts threads ms o) :
    ms.Pairwise (· ≤ ·) := by
  obtain ⟨v, hi⟩ := hr.inv ho
  exact hi.sorted

/-- C41. The number of epochs is the number of rounds whose makespan differs from the one recorded
before (which is 0 before the first round), and the optimizer has converged exactly if the
iterations done in the rounds since the last such round are at least the idle limit. `ms` are
the makespans after each round, newest first. -/
theorem optimizer_epochs (ho : ValidOptions E opts) (hr : OptimizerRun E opts threads ms o) :
    o.epochs = changes (ms ++ [0]) ∧
      (o.hasConverged = true ↔ opts.maxIdleIters ≤ opts.batchSize * unchanged (ms ++ [0])) := by
  obtain ⟨v, hi⟩ := hr.inv ho
  refine ⟨hi.epochs, ?_⟩
  unfold Optimizer.hasConverged
  rw [decide_eq_true_eq, hi.maxIdle, hi.idle]

/-- C41, round by round. -/
theorem optimizer_epoch_step (ho : ValidOptions E opts) (hr : OptimizerRun E opts threads ms o)
    {draws : Nat → Nat → Draws K} {o' : Optimizer K} (h : o.update E draws = ok o') {v : K}
    (hv : o'.normalizedMakespan = ok v) :
    (v = o.lastMakespan → o'.epochs = o.epochs ∧ o'.idleIters = o.idleIters + opts.batchSize ∧
      o'.lastMakespan = v) ∧
    (v ≠ o.lastMakespan → o'.epochs = o.epochs + 1 ∧ o'.idleIters = 0 ∧ o'.lastMakespan = v) := by
  obtain ⟨w, hi⟩ := hr.inv ho
  obtain ⟨w', hi'⟩ := (hr.update h hv).inv ho
  have h1 := hi'.epochs
  have h2 := hi'.idle
  rw [changes_cons] at h1
  rw [unchanged_cons] at h2
  rw [hi.last, hi'.last]
  constructor
  · intro he
    rw [if_pos he] at h1 h2
    refine ⟨by rw [h1, hi.epochs, Nat.zero_add], by rw [h2, hi.idle, Nat.mul_add, Nat.mul_one], rfl⟩
  · intro he
    rw [if_neg he] at h1 h2
    refine ⟨by rw [h1, hi.epochs, Nat.add_comm], by rw [h2, Nat.mul_zero], rfl⟩

/-! ### C42: rebinding parameters -/

/-- C42, what holds: after `params(q)` and a reset, any number of rounds report valid schedules for `q` and their
makespans computed from `q`, if `q` has the durations, performances and dependencies of the old
parameters (the available agents may differ). Missing: other `q`, for which the claim is false
(`rebind_uses_old_times`). -/
theorem rebind_partial (ho : ValidOptions E opts) (hr : OptimizerRun E opts threads ms o)
    {q : ScheduleParams K} (hq : ValidOptions E { opts with params := q })
    (hs : SameTimes opts.params q) (draws : Nat → Nat → Nat → Draws K) (n : Nat) :
    ∃ o₁ o₂ s v, (o.setParams q).reset E = ok o₁ ∧ o₁.rounds E draws n = ok o₂ ∧
      o₂.schedule = ok s ∧ o₂.normalizedMakespan = ok v ∧ ValidSchedule q s ∧
      IsMakespan E q s v := by
  obtain ⟨v, hi⟩ := hr.inv ho
  obtain ⟨o₁, v₁, h1, h2, h3⟩ := Optimizer.reset_setParams ho hq hs hi
  obtain ⟨o₂, ms₂, v₂, h4, h5, _⟩ := rounds_rebound hq h2 h3 draws n
  obtain ⟨s, g1, g2, g3⟩ := h5.schedule_eq hq
  refine ⟨o₁, o₂, s, v₂, h1, h4, ?_, ?_, g2, (isMakespan_iff hq.wellFormed g2).2 g3⟩
  · rw [← g1, reboundAll_schedule]
  · rw [← h5.makespan_eq hq, reboundAll_makespan]

/-- After `params(q)` for parameters with other durations or performances, a reset still reports the
makespan computed from the old parameters. -/
theorem rebind_reports_old (ho : ValidOptions E opts) (hr : OptimizerRun E opts threads ms o)
    {q : ScheduleParams K} {s : List Item} (hs : initialSchedule q = ok s)
    (hv : ValidSchedule opts.params s) :
    ∃ o₁ v, (o.setParams q).reset E = ok o₁ ∧ o₁.normalizedMakespan = ok v ∧
      IsMakespan E opts.params s v := by
  obtain ⟨v, hi⟩ := hr.inv ho
  have hjob : ∀ j : Job K, JobInv E opts j → ∃ j', (j.setParams q).reset E = ok j' ∧
      j'.normalizedMakespan = ok (valueOf E opts.params s) := by
    intro j h
    obtain ⟨m', t', h1, _, h3, _, _, h4, _⟩ := tunnelingReset_ok (E := E) ho.wellFormed h.inv.gamma0
      h.shape hv
    obtain ⟨temp, htemp⟩ := h.temp.reset_ok
    unfold Job.reset
    rw [expects_true (by simpa [Job.setParams, h.batch] using ho.batch_pos), ok_bind]
    simp only [Job.setParams]
    rw [hs, ok_bind, h1, ok_bind]
    dsimp only
    rw [htemp, ok_bind]
    refine ⟨_, rfl, ?_⟩
    show t'.normalizedMakespan = _
    rw [normalizedMakespan_eq ho.wellFormed h3, h4]
  have hjobs : ∀ l : List (Job K), (∀ j ∈ l, JobInv E opts j) →
      ∃ l', resetJobs E (l.map fun j => j.setParams q) = ok l' ∧ l'.length = l.length ∧
        ∀ j ∈ l', j.normalizedMakespan = ok (valueOf E opts.params s) := by
    intro l
    induction l with
    | nil => intro _; exact ⟨[], rfl, rfl, by simp⟩
    | cons j rest ih =>
      intro h
      obtain ⟨j', h1, h2⟩ := hjob j (h j (by simp))
      obtain ⟨r', g1, g2, g3⟩ := ih (fun x hx => h x (by simp [hx]))
      refine ⟨j' :: r', ?_, by simp [g2], ?_⟩
      · simp only [List.map_cons, resetJobs, h1, ok_bind, g1]
        rfl
      · intro x hx
        rcases List.mem_cons.1 hx with rfl | hx
        · exact h2
        · exact g3 x hx
  obtain ⟨l', h1, h2, h3⟩ := hjobs o.jobs (fun j hj => (hi.jobs j hj).1)
  unfold Optimizer.reset
  simp only [Optimizer.setParams]
  rw [expects_true (by simpa [hi.maxIdle] using ho.idle_pos), ok_bind,
    expects_true (by simpa [hi.batch] using ho.batch_pos), ok_bind,
    expects_true (by simpa using hi.jobs_ne), ok_bind, h1, ok_bind]
  refine ⟨_, valueOf E opts.params s, rfl, ?_, (isMakespan_iff ho.wellFormed hv).2 rfl⟩
  cases l' with
  | nil =>
    exfalso
    apply hi.jobs_ne
    exact List.length_eq_zero_iff.1 h2.symm
  | cons j rest => exact h3 j (by simp)

/-! ### Examples -/

/-- Options for the example project: batches of 10 iterations, stop after 50 idle ones. -/
def exampleOptions : Options ℚ where
  params := Example.params
  batchSize := 10
  maxIdleIters := 50
  betaScale := 1 / 10000
  stunWindow := 100
  gamma := 1 / 2
  restartPeriod := 1024

theorem exampleOptions_valid : ValidOptions FloatEnv.rat exampleOptions where
  wellFormed := Example.params_wellFormed
  batch_pos := by decide
  idle_pos := by decide
  window_pos := by decide
  period := ⟨10, rfl⟩
  beta_pos := by decide +kernel
  beta_small := by decide +kernel
  gamma_nonneg := by decide +kernel

/-- Some optimizer with four jobs exists, as does its state after one round and a copy. -/
example (draws : Nat → Nat → Draws ℚ) :
    ∃ v o, OptimizerRun FloatEnv.rat exampleOptions 4 [v] o := by
  obtain ⟨o, _, h, _⟩ := Optimizer.new_ok (threads := 4) exampleOptions_valid (by decide)
  have hr := OptimizerRun.new h
  obtain ⟨o', _, s, v, h1, _, h2, _⟩ := optimizer_best_of_jobs exampleOptions_valid hr draws
  obtain ⟨o'', h3, _⟩ := ((optimizer_no_violation exampleOptions_valid).2 (hr.update h1 h2)).2.2
  exact ⟨v, o'', .copy (hr.update h1 h2) h3⟩

/-- The example project with tasks that take twice as long. -/
def slowParams : ScheduleParams ℚ := { Example.params with taskDuration := [4, 6, 8] }

/-- The full C42 is false: rebinding to a project with twice the durations and resetting reports the
makespan of the old project. -/
theorem rebind_uses_old_times :
    ∃ o o₁ s v v', OptimizerRun FloatEnv.rat exampleOptions 4 [] o ∧ (o.setParams slowParams).reset FloatEnv.rat = ok o₁ ∧
      initialSchedule slowParams = ok s ∧ o₁.normalizedMakespan = ok v ∧
      IsMakespan FloatEnv.rat slowParams s v' ∧ v ≠ v' := by
  obtain ⟨o, _, h, _⟩ := Optimizer.new_ok (threads := 4) exampleOptions_valid (by decide)
  have hr := OptimizerRun.new h
  have hs : initialSchedule slowParams = ok [⟨0, 0⟩, ⟨1, 1⟩, ⟨2, 0⟩] := by
    simp [initialSchedule, initialLoop, pushTask, pushTasks, slowParams, Example.params, expects,
      Vector2D.row, Vector2D.ofSizes, Vector2D.spansOf, List.range, List.range.loop]
  obtain ⟨o₁, v, h1, h2, h3⟩ := rebind_reports_old exampleOptions_valid hr hs
    (by apply validSchedule_of_check <;> decide)
  refine ⟨o, o₁, _, v, 12, hr, h1, hs, h2, ⟨⟨slowParams, [0, 0, 0], [0, 0]⟩,
    ⟨slowParams, [4, 3, 12], [12, 3]⟩, by decide +kernel, by decide +kernel⟩, ?_⟩
  · obtain ⟨m, m', g1, g2⟩ := h3
    cases g1
    have g3 : (⟨Example.params, [0, 0, 0], [0, 0]⟩ : Makespan ℚ).call FloatEnv.rat
        [⟨0, 0⟩, ⟨1, 1⟩, ⟨2, 0⟩] = ok (6, ⟨Example.params, [2, 3/2, 6], [6, 3/2]⟩) := by decide +kernel
    have g4 := g3.symm.trans g2
    simp only [Outcome.ok.injEq, Prod.mk.injEq] at g4
    rw [← g4.1]
    norm_num

end Angonoka.Props
