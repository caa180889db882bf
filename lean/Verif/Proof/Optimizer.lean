import Verif.Spec.Optimizer
import Verif.Proof.Stun
import Verif.Proof.InitialSchedule

/-!
# Invariants of jobs and optimizers
-/

set_option linter.unusedSectionVars false

namespace Angonoka
open Outcome Stun

variable {K : Type} [Field K] [LinearOrder K] [IsStrictOrderedRing K]

structure JobInv (E : FloatEnv K) (opts : Options K) (j : Job K) : Prop where
  batch : j.batchSize = opts.batchSize
  params : j.params = opts.params
  shape : MakespanShape opts.params j.makespan
  temp : TempInv opts.betaScale opts.restartPeriod j.temperature
  inv : TunnelInv E opts.params j.stun
  bound : ∀ s, initialSchedule opts.params = ok s → j.stun.lowestE ≤ valueOf E opts.params s

section
variable {E : FloatEnv K} {opts : Options K} {j : Job K}

theorem JobInv.makespan_eq (ho : ValidOptions E opts) (h : JobInv E opts j) :
    j.normalizedMakespan = ok j.stun.lowestE :=
  normalizedMakespan_eq ho.wellFormed h.inv

theorem temperature_new_ok (ho : ValidOptions E opts) :
    ∃ t, Temperature.new opts.betaScale opts.stunWindow opts.restartPeriod = ok t := by
  unfold Temperature.new
  obtain ⟨k, hk⟩ := ho.period
  have hs : hasSingleBit opts.restartPeriod = true := (hasSingleBit_iff _).2 ⟨k, hk⟩
  rw [expects_true (by simpa using ho.beta_pos), ok_bind,
    expects_true (by simpa using ho.window_pos), ok_bind,
    expects_true (by simpa [hk] using Nat.two_pow_pos k), ok_bind, expects_true hs, ok_bind]
  exact ⟨_, rfl⟩

theorem makespan_new_ok (hw : WellFormed opts.params) : ∃ m, Makespan.new opts.params = ok m := by
  unfold Makespan.new
  have hne : opts.params.taskDuration ≠ [] := by
    have := hw.tasks_pos
    intro h
    simp [ScheduleParams.taskCount, h] at this
  have hne' : opts.params.agentPerformance ≠ [] := by
    intro h
    obtain ⟨a, ha⟩ := List.exists_mem_of_ne_nil _ (hw.avail_ne 0 hw.tasks_pos)
    have := hw.avail_lt 0 hw.tasks_pos a ha
    simp [ScheduleParams.agentCount, h] at this
  rw [expects_true (by simpa using hne'), ok_bind, expects_true (by simpa using hne), ok_bind]
  exact ⟨_, rfl⟩

theorem makespan_copy_ok (ho : ValidOptions E opts) {m : Makespan K}
    (h : MakespanShape opts.params m) : ∃ m', m.copy = ok m' := by
  obtain ⟨c, hc⟩ := makespan_new_ok ho.wellFormed
  have hs := MakespanShape.new hc
  unfold Makespan.copy
  rw [h.params, hc, ok_bind, expects_true, ok_bind]
  · exact ⟨_, rfl⟩
  · rw [beq_iff_eq, hs.tasks, hs.agents, h.tasks, h.agents]

theorem Job.new_ok (ho : ValidOptions E opts) :
    ∃ j, Job.new E opts = ok j ∧ JobInv E opts j := by
  have hw := ho.wellFormed
  obtain ⟨s, hs, hv⟩ := initialSchedule_ok hw
  obtain ⟨m, hm⟩ := makespan_new_ok hw
  obtain ⟨temp, htemp⟩ := temperature_new_ok ho
  have hm' : MakespanShape opts.params m := (EstimatorFor.new (E := E) hm).shape
  obtain ⟨m', t', h1, h2, h3, _, _, h4, _⟩ := tunnelingReset_ok (E := E)
    (t := Tunneling.blank opts.gamma) hw ho.gamma_nonneg hm' hv
  unfold Job.new
  rw [expects_true (by simpa [hw.deps_size] using hw.tasks_pos), ok_bind,
    expects_true (by simpa [hw.avail_size] using hw.tasks_pos), ok_bind, hm, ok_bind, htemp,
    ok_bind, hs, ok_bind]
  unfold Tunneling.new
  rw [expects_true (by simpa using hv.ne_nil hw), ok_bind, h1, ok_bind]
  dsimp only
  rw [expects_true (by simpa using ho.batch_pos), ok_bind]
  refine ⟨_, rfl, rfl, rfl, h2, .new htemp, h3, ?_⟩
  intro s' hs'
  rw [hs] at hs'
  cases hs'
  exact h4.le

theorem Job.step_ok (ho : ValidOptions E opts) (h : JobInv E opts j) (d : Draws K) :
    ∃ j', j.step E d = ok j' ∧ JobInv E opts j' ∧ j'.stun.lowestE ≤ j.stun.lowestE := by
  obtain ⟨m', temp', t', s, h1, h2, h3, h4⟩ := tunnelingUpdate_ok ho.wellFormed h.inv h.shape h.temp
    ho.beta_small d
  unfold Job.step
  rw [h.params, h1, ok_bind]
  have hle : t'.lowestE ≤ j.stun.lowestE := by rw [h4.lowestE]; exact min_le_left _ _
  exact ⟨_, rfl, ⟨h.batch, rfl, h2, h3, h4.inv, fun s hs => hle.trans (h.bound s hs)⟩, hle⟩

theorem Job.steps_ok (ho : ValidOptions E opts) (ds : List (Draws K)) :
    ∀ {j : Job K}, JobInv E opts j →
    ∃ j', j.steps E ds = ok j' ∧ JobInv E opts j' ∧ j'.stun.lowestE ≤ j.stun.lowestE := by
  induction ds with
  | nil => intro j h; exact ⟨j, rfl, h, le_rfl⟩
  | cons d ds ih =>
    intro j h
    obtain ⟨j₁, h1, h2, h3⟩ := Job.step_ok ho h d
    obtain ⟨j₂, g1, g2, g3⟩ := ih h2
    refine ⟨j₂, ?_, g2, g3.trans h3⟩
    simp only [Job.steps, h1, ok_bind, g1]

theorem Job.update_ok (ho : ValidOptions E opts) (h : JobInv E opts j) (draws : Nat → Draws K) :
    ∃ j', j.update E draws = ok j' ∧ JobInv E opts j' ∧ j'.stun.lowestE ≤ j.stun.lowestE := by
  unfold Job.update
  rw [expects_true (by simpa [h.batch] using ho.batch_pos), ok_bind]
  exact Job.steps_ok ho _ h

theorem Job.reset_ok (ho : ValidOptions E opts) (h : JobInv E opts j) :
    ∃ j', j.reset E = ok j' ∧ JobInv E opts j' := by
  obtain ⟨s, hs, hv⟩ := initialSchedule_ok ho.wellFormed
  obtain ⟨m', t', h1, h2, h3, _, _, h4, _⟩ := tunnelingReset_ok (E := E) ho.wellFormed h.inv.gamma0
    h.shape hv
  obtain ⟨temp, htemp⟩ := h.temp.reset_ok
  unfold Job.reset
  rw [expects_true (by simpa [h.batch] using ho.batch_pos), ok_bind, h.params, hs, ok_bind, h1,
    ok_bind]
  dsimp only
  rw [htemp, ok_bind]
  refine ⟨_, rfl, h.batch, rfl, h2, h.temp.reset htemp, h3, ?_⟩
  intro s' hs'
  rw [hs] at hs'
  cases hs'
  exact h4.le

/-- After a reset the makespan is that of the initial schedule. -/
theorem Job.reset_lowest (ho : ValidOptions E opts) (h : JobInv E opts j) {j' : Job K}
    (hr : j.reset E = ok j') {s : List Item} (hs : initialSchedule opts.params = ok s) :
    j'.stun.lowestE = valueOf E opts.params s := by
  obtain ⟨s', hs', hv⟩ := initialSchedule_ok ho.wellFormed
  rw [hs] at hs'
  cases hs'
  obtain ⟨m', t', h1, h2, h3, _, _, h4, _⟩ := tunnelingReset_ok (E := E) ho.wellFormed h.inv.gamma0
    h.shape hv
  obtain ⟨temp, htemp⟩ := h.temp.reset_ok
  unfold Job.reset at hr
  rw [expects_true (by simpa [h.batch] using ho.batch_pos), ok_bind, h.params, hs, ok_bind, h1,
    ok_bind] at hr
  dsimp only at hr
  rw [htemp, ok_bind] at hr
  cases hr
  exact h4

theorem Job.new_lowest (ho : ValidOptions E opts) (h : Job.new E opts = ok j)
    {s : List Item} (hs : initialSchedule opts.params = ok s) :
    j.stun.lowestE = valueOf E opts.params s := by
  obtain ⟨s', hs', hv⟩ := initialSchedule_ok ho.wellFormed
  rw [hs] at hs'
  cases hs'
  simp only [Job.new, bind_eq_ok] at h
  obtain ⟨_, _, _, _, m, hm, _, _, s', hs', ⟨m₁, t₁⟩, h1, _, _, h⟩ := h
  rw [hs] at hs'
  cases hs'
  cases h
  have hm' : MakespanShape opts.params m := (EstimatorFor.new (E := E) hm).shape
  obtain ⟨m', t', g1, _, _, _, _, h4, _⟩ := tunnelingReset_ok (E := E)
    (t := Tunneling.blank opts.gamma) ho.wellFormed ho.gamma_nonneg hm' hv
  unfold Tunneling.new at h1
  rw [expects_true (by simpa using hv.ne_nil ho.wellFormed), ok_bind, g1] at h1
  cases h1
  exact h4

theorem Job.copy_ok (ho : ValidOptions E opts) (h : JobInv E opts j) :
    ∃ j', j.copy = ok j' ∧ JobInv E opts j' ∧ j'.stun.lowestE = j.stun.lowestE ∧
      j'.stun.bestSchedule = j.stun.bestSchedule := by
  obtain ⟨t', h1, h2, h3, h4, _⟩ := Tunneling.copy_ok ho.wellFormed h.inv
  obtain ⟨m', hm⟩ := makespan_copy_ok ho h.shape
  unfold Job.copy
  rw [hm, ok_bind, h1, ok_bind]
  refine ⟨_, rfl, ⟨h.batch, h.params, h.shape.copy hm, h.temp, h2, ?_⟩, h4, h3⟩
  intro s hs
  simpa [h4] using h.bound s hs

theorem JobInv.setParams (h : JobInv E opts j) : j.setParams opts.params = j := by
  have := h.params
  cases j
  simp only at this
  subst this
  rfl

theorem updateJobs_ok (ho : ValidOptions E opts) (draws : Nat → Nat → Draws K) {jobs : List (Job K)} :
    ∀ k, (∀ j ∈ jobs, JobInv E opts j) →
    ∃ jobs', updateJobs E draws k jobs = ok jobs' ∧
      List.Forall₂ (fun j j' => JobInv E opts j' ∧ j'.stun.lowestE ≤ j.stun.lowestE) jobs jobs' := by
  induction jobs with
  | nil => intro k _; exact ⟨[], rfl, .nil⟩
  | cons j rest ih =>
    intro k h
    obtain ⟨j', h1, h2, h3⟩ := Job.update_ok ho (h j (by simp)) (draws k)
    obtain ⟨rest', g1, g2⟩ := ih (k + 1) (fun x hx => h x (by simp [hx]))
    refine ⟨j' :: rest', ?_, .cons ⟨h2, h3⟩ g2⟩
    simp only [updateJobs, h1, ok_bind, g1]
    rfl

theorem resetJobs_ok (ho : ValidOptions E opts) {jobs : List (Job K)} :
    (∀ j ∈ jobs, JobInv E opts j) →
    ∃ jobs', resetJobs E jobs = ok jobs' ∧
      List.Forall₂ (fun j j' => JobInv E opts j' ∧ j.reset E = ok j') jobs jobs' := by
  induction jobs with
  | nil => intro _; exact ⟨[], rfl, .nil⟩
  | cons j rest ih =>
    intro h
    obtain ⟨j', h1, h2⟩ := Job.reset_ok ho (h j (by simp))
    obtain ⟨rest', g1, g2⟩ := ih (fun x hx => h x (by simp [hx]))
    refine ⟨j' :: rest', ?_, .cons ⟨h2, h1⟩ g2⟩
    simp only [resetJobs, h1, ok_bind, g1]
    rfl

theorem copyJobs_ok (ho : ValidOptions E opts) {jobs : List (Job K)} :
    (∀ j ∈ jobs, JobInv E opts j) →
    ∃ jobs', copyJobs jobs = ok jobs' ∧
      List.Forall₂ (fun j j' => JobInv E opts j' ∧ j'.stun.lowestE = j.stun.lowestE ∧
        j'.stun.bestSchedule = j.stun.bestSchedule) jobs jobs' := by
  induction jobs with
  | nil => intro _; exact ⟨[], rfl, .nil⟩
  | cons j rest ih =>
    intro h
    obtain ⟨j', h1, h2⟩ := Job.copy_ok ho (h j (by simp))
    obtain ⟨rest', g1, g2⟩ := ih (fun x hx => h x (by simp [hx]))
    refine ⟨j' :: rest', ?_, .cons h2 g2⟩
    simp only [copyJobs, h1, ok_bind, g1]
    rfl

theorem minJob_ok (ho : ValidOptions E opts) {l : List (Job K)} :
    ∀ {b : Job K}, (∀ j ∈ b :: l, JobInv E opts j) →
    ∃ r ∈ b :: l, minJob b l = ok r ∧ ∀ j ∈ b :: l, r.stun.lowestE ≤ j.stun.lowestE := by
  induction l with
  | nil => intro b _; exact ⟨b, by simp, rfl, by simp⟩
  | cons j rest ih =>
    intro b h
    have hb := (h b (by simp)).makespan_eq ho
    have hj := (h j (by simp)).makespan_eq ho
    simp only [minJob, hb, ok_bind, hj]
    by_cases hlt : j.stun.lowestE < b.stun.lowestE
    · rw [if_pos hlt]
      obtain ⟨r, h1, h2, h3⟩ := ih (b := j) (fun x hx => h x (List.mem_cons_of_mem _ hx))
      refine ⟨r, List.mem_cons_of_mem _ h1, h2, ?_⟩
      intro x hx
      rcases List.mem_cons.1 hx with rfl | hx
      · exact (h3 j (by simp)).trans hlt.le
      · exact h3 x hx
    · rw [if_neg hlt]
      obtain ⟨r, h1, h2, h3⟩ := ih (b := b) (fun x hx => h x (by
        rcases List.mem_cons.1 hx with rfl | hx
        · simp
        · simp [hx]))
      refine ⟨r, by
        rcases List.mem_cons.1 h1 with rfl | h1
        · simp
        · simp [h1], h2, ?_⟩
      intro x hx
      rcases List.mem_cons.1 hx with rfl | hx
      · exact h3 x (by simp)
      rcases List.mem_cons.1 hx with rfl | hx
      · exact (h3 b (by simp)).trans (not_lt.1 hlt)
      · exact h3 x (by simp [hx])

theorem replicateLoop_ok (ho : ValidOptions E opts) {target : Job K} (ht : JobInv E opts target)
    {jobs : List (Job K)} : (∀ j ∈ jobs, JobInv E opts j) →
    ∃ jobs', replicateLoop target target.stun.lowestE opts.params jobs = ok jobs' ∧
      jobs'.length = jobs.length ∧
      ∀ j ∈ jobs', JobInv E opts j ∧ j.stun.lowestE = target.stun.lowestE := by
  induction jobs with
  | nil => intro _; exact ⟨[], rfl, rfl, by simp⟩
  | cons j rest ih =>
    intro h
    obtain ⟨rest', g1, g2, g3⟩ := ih (fun x hx => h x (by simp [hx]))
    have hj := (h j (by simp)).makespan_eq ho
    simp only [replicateLoop, hj, ok_bind, g1]
    by_cases he : j.stun.lowestE = target.stun.lowestE
    · rw [if_pos he]
      refine ⟨j :: rest', rfl, by simp [g2], ?_⟩
      intro x hx
      rcases List.mem_cons.1 hx with rfl | hx
      · exact ⟨h x (by simp), he⟩
      · exact g3 x hx
    · rw [if_neg he]
      obtain ⟨c, c1, c2, c3, _⟩ := Job.copy_ok ho ht
      rw [c1, ok_bind, c2.setParams]
      refine ⟨c :: rest', rfl, by simp [g2], ?_⟩
      intro x hx
      rcases List.mem_cons.1 hx with rfl | hx
      · exact ⟨c2, c3⟩
      · exact g3 x hx

theorem replicateBestJob_ok (ho : ValidOptions E opts) {jobs : List (Job K)} (hne : jobs ≠ [])
    (h : ∀ j ∈ jobs, JobInv E opts j) :
    ∃ jobs' v, replicateBestJob jobs = ok jobs' ∧ jobs'.length = jobs.length ∧
      (∀ j ∈ jobs', JobInv E opts j ∧ j.stun.lowestE = v) ∧
      (∃ j ∈ jobs, j.stun.lowestE = v) ∧ ∀ j ∈ jobs, v ≤ j.stun.lowestE := by
  cases jobs with
  | nil => exact absurd rfl hne
  | cons first rest =>
    obtain ⟨r, h1, h2, h3⟩ := minJob_ok ho h
    obtain ⟨c, c1, c2, c3, _⟩ := Job.copy_ok ho (h r h1)
    obtain ⟨jobs', g1, g2, g3⟩ := replicateLoop_ok ho c2 h
    refine ⟨jobs', c.stun.lowestE, ?_, g2, g3, ⟨r, h1, c3.symm⟩, ?_⟩
    · simp only [replicateBestJob, h2, ok_bind, c1, c2.makespan_eq ho, (h first (by simp)).params, g1]
    · intro j hj
      rw [c3]
      exact h3 j hj

/-! ### Progress -/

theorem ExpCurve.at_nonneg (E : FloatEnv K) (c : ExpCurve K) (x : K) : 0 ≤ c.at E x := by
  unfold ExpCurve.at
  split
  · exact le_rfl
  · exact E.exp_nonneg _

theorem ExpCurve.call_ok (E : FloatEnv K) (c : ExpCurve K) {x y : K} (hx : 0 ≤ x) (hy : 0 ≤ y) :
    ∃ v c', c.call E x y = ok (v, c') ∧ 0 ≤ v := by
  unfold ExpCurve.call
  rw [expects_true (by simpa using hx), ok_bind, expects_true (by simpa using hy), ok_bind]
  dsimp only
  split
  · exact ⟨_, _, rfl, le_rfl⟩
  · exact ⟨_, _, rfl, E.exp_nonneg _⟩

theorem ofInt_nonneg (E : FloatEnv K) (n : Nat) : 0 ≤ E.ofInt (n : Int) :=
  E.rnd_nonneg (by exact_mod_cast Nat.zero_le n)

theorem Optimizer.progress_ok (E : FloatEnv K) {o : Optimizer K} (h : 0 < o.maxIdleIters) :
    ∃ p, o.progress E = ok p ∧ 0 ≤ p := by
  unfold Optimizer.progress
  rw [expects_true (by simpa using h), ok_bind]
  exact ⟨_, rfl, E.rnd_nonneg (div_nonneg (ofInt_nonneg E _) (ofInt_nonneg E _))⟩

/-! ### The optimizer -/

/-- Makespan recorded by an optimizer: the last reported one, 0 at the start. -/
def recorded : List K → K
  | [] => 0
  | v :: _ => v

structure OptInv (E : FloatEnv K) (opts : Options K) (threads : Nat) (ms : List K)
    (o : Optimizer K) (v : K) : Prop where
  batch : o.batchSize = opts.batchSize
  maxIdle : o.maxIdleIters = opts.maxIdleIters
  idle : o.idleIters = opts.batchSize * unchanged (ms ++ [0])
  epochs : o.epochs = changes (ms ++ [0])
  last : o.lastMakespan = recorded ms
  len : o.jobs.length = threads
  threads_pos : 0 < threads
  jobs : ∀ j ∈ o.jobs, JobInv E opts j ∧ j.stun.lowestE = v
  head : ms ≠ [] → recorded ms = v
  start : ms = [] → ∀ s, initialSchedule opts.params = ok s → v = valueOf E opts.params s
  sorted : ms.Pairwise (· ≤ ·)
  prog0 : 0 ≤ o.lastProgress
  prog1 : o.lastProgress ≤ 1

variable {threads : Nat} {ms : List K} {o : Optimizer K} {v : K}

theorem OptInv.jobs_ne (h : OptInv E opts threads ms o v) : o.jobs ≠ [] := by
  intro h0
  have := h.len
  have := h.threads_pos
  simp [h0] at *
  omega

theorem OptInv.bestJob (h : OptInv E opts threads ms o v) :
    ∃ j ∈ o.jobs, o.bestJob = ok j := by
  have hne := h.jobs_ne
  unfold Optimizer.bestJob at?
  cases hj : o.jobs with
  | nil => exact absurd hj hne
  | cons j rest => exact ⟨j, by simp, rfl⟩

theorem bestJob_of_ne {o : Optimizer K} (hne : o.jobs ≠ []) : ∃ j ∈ o.jobs, o.bestJob = ok j := by
  unfold Optimizer.bestJob at?
  cases hj : o.jobs with
  | nil => exact absurd hj hne
  | cons j rest => exact ⟨j, by simp, rfl⟩

theorem OptInv.makespan_eq (ho : ValidOptions E opts) (h : OptInv E opts threads ms o v) :
    o.normalizedMakespan = ok v := by
  obtain ⟨j, hj, hb⟩ := h.bestJob
  unfold Optimizer.normalizedMakespan
  rw [hb, ok_bind, (h.jobs j hj).1.makespan_eq ho, (h.jobs j hj).2]

theorem OptInv.schedule_eq (ho : ValidOptions E opts) (h : OptInv E opts threads ms o v) :
    ∃ s, o.schedule = ok s ∧ ValidSchedule opts.params s ∧ v = valueOf E opts.params s := by
  obtain ⟨j, hj, hb⟩ := h.bestJob
  have hi := (h.jobs j hj).1.inv
  refine ⟨j.stun.bestSchedule, ?_, hi.bestValid, ?_⟩
  · unfold Optimizer.schedule
    rw [hb, ok_bind]
    exact Angonoka.schedule_eq ho.wellFormed hi
  · rw [← (h.jobs j hj).2, hi.lowest]

theorem unchanged_cons (v : K) (ms : List K) :
    unchanged ((v :: ms) ++ [0]) = if v = recorded ms then unchanged (ms ++ [0]) + 1 else 0 := by
  cases ms <;> rfl

theorem changes_cons (v : K) (ms : List K) :
    changes ((v :: ms) ++ [0]) = (if v = recorded ms then 0 else 1) + changes (ms ++ [0]) := by
  cases ms <;> rfl

/-- Everything one round of the optimizer guarantees. -/
theorem Optimizer.update_ok (ho : ValidOptions E opts) (h : OptInv E opts threads ms o v)
    (draws : Nat → Nat → Draws K) :
    ∃ o' v' jobs, o.update E draws = ok o' ∧ OptInv E opts threads (v' :: ms) o' v' ∧ v' ≤ v ∧
      updateJobs E draws 0 o.jobs = ok jobs ∧ (∀ j ∈ jobs, JobInv E opts j) ∧
      (∃ j ∈ jobs, j.stun.lowestE = v') ∧ ∀ j ∈ jobs, v' ≤ j.stun.lowestE := by
  obtain ⟨jobs, h1, h2⟩ := updateJobs_ok ho draws 0 (fun j hj => (h.jobs j hj).1)
  have hlen := h2.length_eq
  have hne : jobs ≠ [] := by
    intro h0
    apply h.jobs_ne
    rw [h0] at hlen
    simpa using hlen
  have hinv : ∀ j ∈ jobs, JobInv E opts j ∧ j.stun.lowestE ≤ v := by
    intro j hj
    obtain ⟨i, hi, rfl⟩ := List.getElem_of_mem hj
    have h3 := (List.forall₂_iff_get.1 h2).2 i (by omega) hi
    simp only [List.get_eq_getElem] at h3
    exact ⟨h3.1, h3.2.trans (h.jobs _ (List.getElem_mem _)).2.le⟩
  obtain ⟨jobs', v', g1, g2, g3, ⟨jb, hjb, hjbv⟩, g5⟩ := replicateBestJob_ok ho hne
    (fun j hj => (hinv j hj).1)
  have hv' : v' ≤ v := by rw [← hjbv]; exact (hinv jb hjb).2
  obtain ⟨o₁, ho₁⟩ : ∃ o₁, o₁ = { o with jobs := jobs', idleIters := o.idleIters + o.batchSize } :=
    ⟨_, rfl⟩
  have hjobs₁ : o₁.jobs = jobs' := by rw [ho₁]
  have hne₁ : o₁.jobs ≠ [] := by
    rw [hjobs₁]
    intro h0
    apply hne
    rw [h0] at g2
    exact List.length_eq_zero_iff.1 g2.symm
  have hms₁ : o₁.normalizedMakespan = ok v' := by
    obtain ⟨j, hj, hb⟩ := bestJob_of_ne hne₁
    rw [hjobs₁] at hj
    unfold Optimizer.normalizedMakespan
    rw [hb, ok_bind, (g3 j hj).1.makespan_eq ho, (g3 j hj).2]
  have hmax₁ : 0 < o₁.maxIdleIters := by rw [ho₁]; simpa [h.maxIdle] using ho.idle_pos
  have hupd : o.update E draws = (if v' = o₁.lastMakespan then o₁.interpolateProgress E
      else o₁.estimateProgress E) := by
    unfold Optimizer.update
    rw [expects_true (by simpa [h.batch] using ho.batch_pos), ok_bind,
      expects_true (by simpa using h.jobs_ne), ok_bind, h1, ok_bind, g1, ok_bind]
    rw [ho₁] at hms₁ ⊢
    dsimp only
    rw [hms₁, ok_bind]
  have hlast : o₁.lastMakespan = recorded ms := by rw [ho₁]; exact h.last
  have hsorted : (v' :: ms).Pairwise (· ≤ ·) := by
    rw [List.pairwise_cons]
    refine ⟨?_, h.sorted⟩
    intro x hx
    refine hv'.trans ?_
    cases ms with
    | nil => simp at hx
    | cons y ys =>
      have hy := h.head (by simp)
      simp only [recorded] at hy
      rcases List.mem_cons.1 hx with rfl | hx
      · exact hy.symm.le
      · rw [← hy]
        exact (List.pairwise_cons.1 h.sorted).1 x hx
  obtain ⟨p, hp, hp0⟩ := Optimizer.progress_ok E hmax₁
  have hrest : (∃ j ∈ jobs, j.stun.lowestE = v') ∧ ∀ j ∈ jobs, v' ≤ j.stun.lowestE :=
    ⟨⟨jb, hjb, hjbv⟩, g5⟩
  by_cases hc : v' = o₁.lastMakespan
  · rw [if_pos hc] at hupd
    unfold Optimizer.interpolateProgress at hupd
    rw [hp, ok_bind] at hupd
    refine ⟨_, v', jobs, hupd, ?_, hv', h1, fun j hj => (hinv j hj).1, hrest⟩
    constructor
    · simp [ho₁, h.batch]
    · simp [ho₁, h.maxIdle]
    · rw [unchanged_cons, if_pos (hc.trans hlast)]
      simp [ho₁, h.idle, h.batch, Nat.mul_add]
    · rw [changes_cons, if_pos (hc.trans hlast), Nat.zero_add]
      simp [ho₁, h.epochs]
    · simp only [recorded]; exact hc.symm
    · simp [ho₁, g2, ← hlen, h.len]
    · exact h.threads_pos
    · rw [show ({ o₁ with lastProgress := _ } : Optimizer K).jobs = o₁.jobs from rfl, hjobs₁]
      exact g3
    · intro _; rfl
    · intro h0; simp at h0
    · exact hsorted
    · exact le_min (ExpCurve.at_nonneg E _ _) zero_le_one
    · exact min_le_right _ _
  · rw [if_neg hc] at hupd
    unfold Optimizer.estimateProgress at hupd
    obtain ⟨w, c', hcall, hw⟩ := ExpCurve.call_ok E o₁.expCurve
      (ofInt_nonneg E (o₁.epochs + 1)) hp0
    rw [hp, ok_bind, hms₁, ok_bind] at hupd
    dsimp only at hupd
    rw [hcall, ok_bind] at hupd
    dsimp only at hupd
    rw [expects_true (by simpa using hw), ok_bind] at hupd
    refine ⟨_, v', jobs, hupd, ?_, hv', h1, fun j hj => (hinv j hj).1, hrest⟩
    constructor
    · simp [ho₁, h.batch]
    · simp [ho₁, h.maxIdle]
    · rw [unchanged_cons, if_neg (by rwa [hlast] at hc)]
      simp
    · rw [changes_cons, if_neg (by rwa [hlast] at hc), Nat.add_comm]
      simp [ho₁, h.epochs]
    · rfl
    · simp [ho₁, g2, ← hlen, h.len]
    · exact h.threads_pos
    · simp only [hjobs₁]
      exact g3
    · intro _; rfl
    · intro h0; simp at h0
    · exact hsorted
    · exact le_min hw zero_le_one
    · exact min_le_right _ _

theorem mapM_new_ok (ho : ValidOptions E opts) (n : Nat) :
    ∃ jobs, (List.replicate n ()).mapM (fun _ => Job.new E opts) = ok jobs ∧ jobs.length = n ∧
      ∀ j ∈ jobs, JobInv E opts j ∧ Job.new E opts = ok j := by
  obtain ⟨j, h1, h2⟩ := Job.new_ok ho
  induction n with
  | zero => exact ⟨[], rfl, rfl, by simp⟩
  | succ n ih =>
    obtain ⟨jobs, g1, g2, g3⟩ := ih
    refine ⟨j :: jobs, ?_, by simp [g2], ?_⟩
    · rw [List.replicate_succ, List.mapM_cons, g1, h1]
      rfl
    · intro x hx
      rcases List.mem_cons.1 hx with rfl | hx
      · exact ⟨h2, h1⟩
      · exact g3 x hx

theorem Optimizer.new_ok (ho : ValidOptions E opts) (ht : 0 < threads) :
    ∃ o v, Optimizer.new E opts threads = ok o ∧ OptInv E opts threads [] o v := by
  obtain ⟨jobs, g1, g2, g3⟩ := mapM_new_ok ho threads
  obtain ⟨s, hs, hv⟩ := initialSchedule_ok ho.wellFormed
  unfold Optimizer.new
  rw [expects_true (by simpa using ho.batch_pos), ok_bind, expects_true (by simpa using ho.idle_pos),
    ok_bind, g1, ok_bind, expects_true, ok_bind]
  · refine ⟨_, valueOf E opts.params s, rfl, ?_⟩
    constructor
    · rfl
    · rfl
    · simp [unchanged]
    · simp [changes]
    · rfl
    · exact g2
    · exact ht
    · exact fun j hj => ⟨(g3 j hj).1, Job.new_lowest ho (g3 j hj).2 hs⟩
    · intro h; exact absurd rfl h
    · intro _ s' hs'; rw [hs] at hs'; cases hs'; rfl
    · exact .nil
    · exact le_rfl
    · exact zero_le_one
  · cases jobs with
    | nil => simp at g2; omega
    | cons => rfl

theorem Optimizer.reset_ok (ho : ValidOptions E opts) (h : OptInv E opts threads ms o v) :
    ∃ o' v', o.reset E = ok o' ∧ OptInv E opts threads [] o' v' := by
  obtain ⟨s, hs, hv⟩ := initialSchedule_ok ho.wellFormed
  obtain ⟨jobs, h1, h2⟩ := resetJobs_ok ho (fun j hj => (h.jobs j hj).1)
  unfold Optimizer.reset
  rw [expects_true (by simpa [h.maxIdle] using ho.idle_pos), ok_bind,
    expects_true (by simpa [h.batch] using ho.batch_pos), ok_bind,
    expects_true (by simpa using h.jobs_ne), ok_bind, h1, ok_bind]
  refine ⟨_, valueOf E opts.params s, rfl, ?_⟩
  constructor
  · exact h.batch
  · exact h.maxIdle
  · simp [unchanged]
  · simp [changes]
  · rfl
  · simp [← h2.length_eq, h.len]
  · exact h.threads_pos
  · intro j hj
    obtain ⟨i, hi, rfl⟩ := List.getElem_of_mem hj
    have h3 := (List.forall₂_iff_get.1 h2).2 i (by rw [h2.length_eq]; exact hi) hi
    simp only [List.get_eq_getElem] at h3
    exact ⟨h3.1, Job.reset_lowest ho (h.jobs _ (List.getElem_mem _)).1 h3.2 hs⟩
  · intro h; exact absurd rfl h
  · intro _ s' hs'; rw [hs] at hs'; cases hs'; rfl
  · exact .nil
  · exact le_rfl
  · exact zero_le_one

theorem Optimizer.copy_ok (ho : ValidOptions E opts) (h : OptInv E opts threads ms o v) :
    ∃ o', o.copy = ok o' ∧ OptInv E opts threads ms o' v ∧ o'.schedule = o.schedule := by
  obtain ⟨jobs, h1, h2⟩ := copyJobs_ok ho (fun j hj => (h.jobs j hj).1)
  unfold Optimizer.copy
  rw [h1, ok_bind]
  have hi : OptInv E opts threads ms { o with jobs := jobs } v := by
    constructor
    · exact h.batch
    · exact h.maxIdle
    · exact h.idle
    · exact h.epochs
    · exact h.last
    · simp [← h2.length_eq, h.len]
    · exact h.threads_pos
    · intro j hj
      obtain ⟨i, hi, rfl⟩ := List.getElem_of_mem hj
      have h3 := (List.forall₂_iff_get.1 h2).2 i (by rw [h2.length_eq]; exact hi) hi
      simp only [List.get_eq_getElem] at h3
      exact ⟨h3.1, h3.2.1.trans (h.jobs _ (List.getElem_mem _)).2⟩
    · exact h.head
    · exact h.start
    · exact h.sorted
    · exact h.prog0
    · exact h.prog1
  refine ⟨_, rfl, hi, ?_⟩
  obtain ⟨j, hj, hb⟩ := h.bestJob
  have hs : ∀ {a b : List (Job K)}, List.Forall₂ (fun j j' => JobInv E opts j' ∧
      j'.stun.lowestE = j.stun.lowestE ∧ j'.stun.bestSchedule = j.stun.bestSchedule) a b →
      (∀ j ∈ a, JobInv E opts j) →
      (at? b 0 "best_job: jobs not empty" >>= Job.schedule)
        = (at? a 0 "best_job: jobs not empty" >>= Job.schedule) := by
    intro a b hab ha
    cases hab with
    | nil => rfl
    | cons hh _ =>
      simp only [at?, List.getElem?_cons_zero, ok_bind, Job.schedule]
      rw [Angonoka.schedule_eq ho.wellFormed hh.1.inv,
        Angonoka.schedule_eq ho.wellFormed (ha _ (by simp)).inv, hh.2.2]
  exact hs h2 (fun j hj => (h.jobs j hj).1)

theorem OptimizerRun.inv (ho : ValidOptions E opts) (h : OptimizerRun E opts threads ms o) :
    ∃ v, OptInv E opts threads ms o v := by
  induction h with
  | new h =>
    rcases Nat.eq_zero_or_pos threads with h0 | h0
    · subst h0
      simp only [Optimizer.new, bind_eq_ok, List.replicate_zero, List.mapM_nil, pure_eq] at h
      obtain ⟨_, _, _, _, _, h1, _, h2, _⟩ := h
      cases h1
      simp [expects] at h2
    · obtain ⟨o', v, h1, h2⟩ := Optimizer.new_ok ho h0
      rw [h] at h1
      cases h1
      exact ⟨v, h2⟩
  | update _ h hv ih =>
    obtain ⟨v, hi⟩ := ih
    obtain ⟨o', v', _, h1, h2, _⟩ := Optimizer.update_ok ho hi _
    rw [h] at h1
    cases h1
    rw [h2.makespan_eq ho] at hv
    cases hv
    exact ⟨_, h2⟩
  | reset _ h ih =>
    obtain ⟨v, hi⟩ := ih
    obtain ⟨o', v', h1, h2⟩ := Optimizer.reset_ok ho hi
    rw [h] at h1
    cases h1
    exact ⟨_, h2⟩
  | copy _ h ih =>
    obtain ⟨v, hi⟩ := ih
    obtain ⟨o', h1, h2, _⟩ := Optimizer.copy_ok ho hi
    rw [h] at h1
    cases h1
    exact ⟨_, h2⟩

end
end Angonoka
