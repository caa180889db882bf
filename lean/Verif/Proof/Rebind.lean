import Verif.Proof.Optimizer

/-!
# Rebinding parameters
-/

set_option linter.unusedSectionVars false

namespace Angonoka
open Outcome Stun

variable {K : Type} [Field K] [LinearOrder K] [IsStrictOrderedRing K] {E : FloatEnv K}

theorem makespanLoop_sameTimes {m : Makespan K} {q : ScheduleParams K} (h : SameTimes m.params q)
    (s : List Item) : ∀ td wd, makespanLoop E m s td wd = makespanLoop E (m.setParams q) s td wd := by
  induction s with
  | nil => intro td wd; rfl
  | cons it rest ih =>
    intro td wd
    simp only [makespanLoop, dependenciesDone, workTime, Makespan.setParams, h.performance,
      h.duration, h.dependencies]
    congr 1
    funext a
    congr 1
    funext b
    congr 1
    funext c
    congr 1
    funext d
    exact ih _ _

theorem call_sameTimes {m : Makespan K} {q : ScheduleParams K} (h : SameTimes m.params q)
    (s : List Item) : (m.setParams q).call E s
      = (m.call E s >>= fun r => ok (r.1, r.2.setParams q)) := by
  unfold Makespan.call
  rw [makespanLoop_sameTimes h]
  simp only [bind_assoc, Makespan.setParams]
  rfl

theorem initEnergies_sameTimes {m : Makespan K} {q : ScheduleParams K} (h : SameTimes m.params q)
    (t : Tunneling K) : initEnergies E (m.setParams q) t
      = (initEnergies E m t >>= fun r => ok (r.1.setParams q, r.2)) := by
  unfold initEnergies
  rw [call_sameTimes h]
  simp only [bind_assoc, ok_bind]
  rfl

theorem tunnelingReset_sameTimes {m : Makespan K} {q : ScheduleParams K} (h : SameTimes m.params q)
    (t : Tunneling K) (s : List Item) : tunnelingReset E (m.setParams q) t s
      = (tunnelingReset E m t s >>= fun r => ok (r.1.setParams q, r.2)) := by
  unfold tunnelingReset
  simp only [initEnergies_sameTimes h, bind_assoc]

theorem getNewNeighbor_sameTimes {m : Makespan K} {q : ScheduleParams K} (h : SameTimes m.params q)
    (p : ScheduleParams K) (d : Draws K) (t : Tunneling K) :
    getNewNeighbor E p d (m.setParams q) t
      = (getNewNeighbor E p d m t >>= fun r => ok (r.1.setParams q, r.2)) := by
  unfold getNewNeighbor
  simp only [call_sameTimes h, bind_assoc, ok_bind]
  rfl

theorem tunnelingUpdate_sameTimes {m : Makespan K} {q : ScheduleParams K} (h : SameTimes m.params q)
    (p : ScheduleParams K) (d : Draws K) (temp : Temperature K) (t : Tunneling K) :
    tunnelingUpdate E p d (m.setParams q) temp t
      = (tunnelingUpdate E p d m temp t >>= fun r => ok (r.1.setParams q, r.2)) := by
  unfold tunnelingUpdate
  simp only [getNewNeighbor_sameTimes h, bind_assoc, ok_bind]
  congr 1; funext _
  congr 1; funext _
  congr 1; funext r
  congr 1; funext b
  split
  · rfl
  · simp only [bind_assoc]; rfl

/-- The job with its estimator rebound, too. -/
def rebound (q : ScheduleParams K) (j : Job K) : Job K :=
  { j with makespan := j.makespan.setParams q }

theorem call_params {m m' : Makespan K} {s : List Item} {v : K} (hc : m.call E s = ok (v, m')) :
    m'.params = m.params := by
  simp only [Makespan.call, bind_eq_ok, Prod.exists] at hc
  obtain ⟨_, _, _, _, _, _, td, wd, hl, hc⟩ := hc
  cases hc
  rfl

theorem tunnelingUpdate_params {p : ScheduleParams K} {d : Draws K} {m m' : Makespan K}
    {temp temp' : Temperature K} {t t' : Tunneling K}
    (h : tunnelingUpdate E p d m temp t = ok (m', temp', t')) : m'.params = m.params := by
  simp only [tunnelingUpdate, bind_eq_ok, Prod.exists] at h
  obtain ⟨_, _, _, _, m₁, t₁, h1, b, t₂, h2, h⟩ := h
  have e1 : m₁.params = m.params := by
    simp only [getNewNeighbor, bind_eq_ok, Prod.exists] at h1
    obtain ⟨_, _, _, _, s, _, v, m₂, hc, _, _, h1⟩ := h1
    cases h1
    exact call_params hc
  cases b with
  | true =>
    simp only [if_true] at h
    cases h
    exact e1
  | false =>
    simp only [Bool.false_eq_true, if_false, bind_eq_ok, Prod.exists] at h
    obtain ⟨_, _, _, h⟩ := h
    cases h
    exact e1

section
variable {q : ScheduleParams K} {j j' : Job K}

theorem step_params {d : Draws K} (h : j.step E d = ok j') :
    j'.makespan.params = j.makespan.params := by
  simp only [Job.step, bind_eq_ok, Prod.exists] at h
  obtain ⟨m, temp, t, h1, h⟩ := h
  cases h
  exact tunnelingUpdate_params h1

theorem step_rebound (h : SameTimes j.makespan.params q) (d : Draws K) :
    (rebound q j).step E d = (j.step E d >>= fun r => ok (rebound q r)) := by
  unfold Job.step
  have := tunnelingUpdate_sameTimes (E := E) h j.params d j.temperature j.stun
  simp only [rebound, this, bind_assoc, ok_bind]
  rfl

theorem steps_rebound (ds : List (Draws K)) : ∀ {j : Job K}, SameTimes j.makespan.params q →
    (rebound q j).steps E ds = (j.steps E ds >>= fun r => ok (rebound q r)) := by
  induction ds with
  | nil => intro j _; rfl
  | cons d ds ih =>
    intro j h
    simp only [Job.steps, step_rebound h, bind_assoc, ok_bind]
    cases hs : j.step E d with
    | ok j' =>
      simp only [ok_bind]
      exact ih (by rw [step_params hs]; exact h)
    | throws e => rfl
    | ub s => rfl

theorem steps_params (ds : List (Draws K)) : ∀ {j j' : Job K}, j.steps E ds = ok j' →
    j'.makespan.params = j.makespan.params := by
  induction ds with
  | nil => intro j j' h; cases h; rfl
  | cons d ds ih =>
    intro j j' h
    simp only [Job.steps, bind_eq_ok] at h
    obtain ⟨j₁, h1, h2⟩ := h
    rw [ih h2, step_params h1]

theorem update_rebound (h : SameTimes j.makespan.params q) (draws : Nat → Draws K) :
    (rebound q j).update E draws = (j.update E draws >>= fun r => ok (rebound q r)) := by
  unfold Job.update
  rw [steps_rebound _ h]
  simp only [bind_assoc]
  rfl

theorem job_update_params {draws : Nat → Draws K} (h : j.update E draws = ok j') :
    j'.makespan.params = j.makespan.params := by
  simp only [Job.update, bind_eq_ok] at h
  obtain ⟨_, _, h⟩ := h
  exact steps_params _ h

theorem copy_rebound (h : SameTimes j.makespan.params q) :
    (rebound q j).copy = (j.copy >>= fun r => ok (rebound q r)) := by
  unfold Job.copy Makespan.copy Makespan.new
  simp only [rebound, Makespan.setParams, h.performance, h.duration, bind_assoc, pure_eq, ok_bind]

theorem copy_params (h : j.copy = ok j') : j'.makespan.params = j.makespan.params := by
  simp only [Job.copy, Makespan.copy, Makespan.new, bind_eq_ok] at h
  obtain ⟨m, ⟨c, ⟨_, _, _, _, h1⟩, _, _, h2⟩, _, _, h3⟩ := h
  cases h1
  cases h2
  cases h3
  rfl

theorem updateJobs_rebound (draws : Nat → Nat → Draws K) : ∀ (k : Nat) {jobs : List (Job K)},
    (∀ j ∈ jobs, SameTimes j.makespan.params q) →
    updateJobs E draws k (jobs.map (rebound q))
      = (updateJobs E draws k jobs >>= fun r => ok (r.map (rebound q))) := by
  intro k jobs
  induction jobs generalizing k with
  | nil => intro _; rfl
  | cons j rest ih =>
    intro h
    simp only [List.map_cons, updateJobs, update_rebound (h j (by simp)), bind_assoc, ok_bind,
      ih (k + 1) (fun x hx => h x (by simp [hx])), pure_eq]

theorem updateJobs_params {draws : Nat → Nat → Draws K} : ∀ (k : Nat) {jobs jobs' : List (Job K)},
    updateJobs E draws k jobs = ok jobs' → (∀ j ∈ jobs, SameTimes j.makespan.params q) →
    ∀ j ∈ jobs', SameTimes j.makespan.params q := by
  intro k jobs
  induction jobs generalizing k with
  | nil => intro jobs' h _; cases h; simp
  | cons j rest ih =>
    intro jobs' h hs
    simp only [updateJobs, bind_eq_ok] at h
    obtain ⟨j₁, h1, r₁, h2, h3⟩ := h
    cases h3
    intro x hx
    rcases List.mem_cons.1 hx with rfl | hx
    · rw [job_update_params h1]; exact hs j (by simp)
    · exact ih (k + 1) h2 (fun y hy => hs y (by simp [hy])) x hx

theorem minJob_rebound : ∀ (l : List (Job K)) (b : Job K),
    minJob (rebound q b) (l.map (rebound q)) = (minJob b l >>= fun r => ok (rebound q r)) := by
  intro l
  induction l with
  | nil => intro b; rfl
  | cons j rest ih =>
    intro b
    simp only [List.map_cons, minJob, bind_assoc]
    have e : ∀ x : Job K, (rebound q x).normalizedMakespan = x.normalizedMakespan := fun _ => rfl
    rw [e, e]
    congr 1; funext x
    congr 1; funext y
    split
    · exact ih j
    · exact ih b

theorem minJob_mem : ∀ {l : List (Job K)} {b r : Job K}, minJob b l = ok r → r ∈ b :: l := by
  intro l
  induction l with
  | nil => intro b r h; cases h; simp
  | cons j rest ih =>
    intro b r h
    simp only [minJob, bind_eq_ok] at h
    obtain ⟨x, _, y, _, h⟩ := h
    have := ih h
    split at this
    · exact List.mem_cons_of_mem _ this
    · rcases List.mem_cons.1 this with rfl | h'
      · simp
      · simp [h']

theorem replicateLoop_rebound {target : Job K} (ht : SameTimes target.makespan.params q) (v : K)
    (p : ScheduleParams K) : ∀ (l : List (Job K)),
    replicateLoop (rebound q target) v p (l.map (rebound q))
      = (replicateLoop target v p l >>= fun r => ok (r.map (rebound q))) := by
  intro l
  induction l with
  | nil => rfl
  | cons j rest ih =>
    have e : ∀ x : Job K, (rebound q x).normalizedMakespan = x.normalizedMakespan := fun _ => rfl
    simp only [List.map_cons, replicateLoop, e, bind_assoc, ih, copy_rebound ht]
    congr 1; funext x
    split
    · simp only [bind_assoc, ok_bind, pure_eq]; rfl
    · simp only [bind_assoc, ok_bind, pure_eq]; rfl

theorem replicateLoop_params {target : Job K} (ht : SameTimes target.makespan.params q) {v : K}
    {p : ScheduleParams K} : ∀ {l l' : List (Job K)}, replicateLoop target v p l = ok l' →
    (∀ j ∈ l, SameTimes j.makespan.params q) → ∀ j ∈ l', SameTimes j.makespan.params q := by
  intro l
  induction l with
  | nil => intro l' h _; cases h; simp
  | cons j rest ih =>
    intro l' h hs
    simp only [replicateLoop, bind_eq_ok] at h
    obtain ⟨e, _, h⟩ := h
    split at h
    · simp only [pure_eq, ok_bind, bind_eq_ok] at h
      obtain ⟨r₁, h2, h3⟩ := h
      cases h3
      intro x hx
      rcases List.mem_cons.1 hx with rfl | hx
      · exact hs _ (by simp)
      · exact ih h2 (fun y hy => hs y (by simp [hy])) x hx
    · simp only [pure_eq, ok_bind, bind_eq_ok] at h
      obtain ⟨c, hc, r₁, h2, h3⟩ := h
      cases h3
      intro x hx
      rcases List.mem_cons.1 hx with rfl | hx
      · show SameTimes c.makespan.params q
        rw [copy_params hc]
        exact ht
      · exact ih h2 (fun y hy => hs y (by simp [hy])) x hx

theorem replicateBestJob_rebound {l : List (Job K)} (hs : ∀ j ∈ l, SameTimes j.makespan.params q) :
    replicateBestJob (l.map (rebound q))
      = (replicateBestJob l >>= fun r => ok (r.map (rebound q))) := by
  cases l with
  | nil => rfl
  | cons first rest =>
    have e : ∀ x : Job K, (rebound q x).normalizedMakespan = x.normalizedMakespan := fun _ => rfl
    simp only [List.map_cons, replicateBestJob, minJob_rebound, bind_assoc, ok_bind]
    cases hm : minJob first rest with
    | throws e => rfl
    | ub s => rfl
    | ok b =>
      have hb := hs b (minJob_mem hm)
      simp only [ok_bind, copy_rebound hb, bind_assoc]
      cases hc : b.copy with
      | throws e => rfl
      | ub s => rfl
      | ok c =>
        have hcs : SameTimes c.makespan.params q := by rw [copy_params hc]; exact hb
        simp only [ok_bind, e]
        congr 1; funext v
        exact replicateLoop_rebound hcs v first.params (first :: rest)

theorem replicateBestJob_params {l l' : List (Job K)} (h : replicateBestJob l = ok l')
    (hs : ∀ j ∈ l, SameTimes j.makespan.params q) : ∀ j ∈ l', SameTimes j.makespan.params q := by
  cases l with
  | nil => simp [replicateBestJob] at h
  | cons first rest =>
    simp only [replicateBestJob, bind_eq_ok] at h
    obtain ⟨b, hb, c, hc, v, _, h⟩ := h
    refine replicateLoop_params ?_ h hs
    rw [copy_params hc]
    exact hs b (minJob_mem hb)

/-- The optimizer with the estimators of all jobs rebound, too. -/
def reboundAll (q : ScheduleParams K) (o : Optimizer K) : Optimizer K :=
  { o with jobs := o.jobs.map (rebound q) }

theorem reboundAll_makespan (o : Optimizer K) :
    (reboundAll q o).normalizedMakespan = o.normalizedMakespan := by
  unfold Optimizer.normalizedMakespan Optimizer.bestJob at? reboundAll
  cases o.jobs with
  | nil => rfl
  | cons => rfl

theorem reboundAll_schedule (o : Optimizer K) : (reboundAll q o).schedule = o.schedule := by
  unfold Optimizer.schedule Optimizer.bestJob at? reboundAll
  cases o.jobs with
  | nil => rfl
  | cons => rfl

theorem interpolate_rebound (o : Optimizer K) : (reboundAll q o).interpolateProgress E
    = (o.interpolateProgress E >>= fun r => ok (reboundAll q r)) := by
  simp only [Optimizer.interpolateProgress, bind_assoc]
  rfl

theorem estimate_rebound (o : Optimizer K) : (reboundAll q o).estimateProgress E
    = (o.estimateProgress E >>= fun r => ok (reboundAll q r)) := by
  simp only [Optimizer.estimateProgress, bind_assoc, reboundAll_makespan]
  rfl

theorem optUpdate_rebound {o : Optimizer K} (hs : ∀ j ∈ o.jobs, SameTimes j.makespan.params q)
    (draws : Nat → Nat → Draws K) : (reboundAll q o).update E draws
      = (o.update E draws >>= fun r => ok (reboundAll q r)) := by
  unfold Optimizer.update
  have h1 : (reboundAll q o).jobs = o.jobs.map (rebound q) := rfl
  have h2 : (!(reboundAll q o).jobs.isEmpty) = !o.jobs.isEmpty := by simp [h1]
  rw [h2, h1, updateJobs_rebound draws 0 hs]
  simp only [bind_assoc]
  congr 1; funext _
  congr 1; funext _
  cases hu : updateJobs E draws 0 o.jobs with
  | throws e => rfl
  | ub s => rfl
  | ok jobs =>
    have hs' := updateJobs_params 0 hu hs
    simp only [ok_bind, replicateBestJob_rebound hs', bind_assoc]
    congr 1; funext jobs'
    have e := reboundAll_makespan (q := q)
      { o with jobs := jobs', idleIters := o.idleIters + o.batchSize }
    have e1 := interpolate_rebound (E := E) (q := q)
      { o with jobs := jobs', idleIters := o.idleIters + o.batchSize }
    have e2 := estimate_rebound (E := E) (q := q)
      { o with jobs := jobs', idleIters := o.idleIters + o.batchSize }
    simp only [reboundAll] at e e1 e2 ⊢
    rw [e]
    congr 1; funext v
    by_cases hv : v = o.lastMakespan
    · simp only [if_pos hv]
      exact (if_pos hv).trans e1
    · simp only [if_neg hv]
      exact (if_neg hv).trans e2

theorem optUpdate_params {o o' : Optimizer K} {draws : Nat → Nat → Draws K}
    (h : o.update E draws = ok o') (hs : ∀ j ∈ o.jobs, SameTimes j.makespan.params q) :
    ∀ j ∈ o'.jobs, SameTimes j.makespan.params q := by
  simp only [Optimizer.update, bind_eq_ok] at h
  obtain ⟨_, _, _, _, jobs, h1, jobs', h2, v, _, h⟩ := h
  have h3 := replicateBestJob_params h2 (updateJobs_params 0 h1 hs)
  have : o'.jobs = jobs' := by
    split at h
    · simp only [Optimizer.interpolateProgress, bind_eq_ok] at h
      obtain ⟨_, _, h⟩ := h
      cases h
      rfl
    · simp only [Optimizer.estimateProgress, bind_eq_ok, Prod.exists] at h
      obtain ⟨_, _, _, _, _, _, _, _, _, h⟩ := h
      cases h
      rfl
  rw [this]
  exact h3

end

section
variable {opts : Options K} {threads : Nat} {q : ScheduleParams K}

/-- A job that is reset after its parameters have been set. -/
theorem Job.reset_setParams (ho : ValidOptions E opts)
    (hq : ValidOptions E { opts with params := q }) (hs : SameTimes opts.params q) {j : Job K}
    (h : JobInv E opts j) :
    ∃ j', (j.setParams q).reset E = ok j' ∧ JobInv E { opts with params := q } (rebound q j') ∧
      SameTimes j'.makespan.params q ∧
      ∀ s, initialSchedule q = ok s → j'.stun.lowestE = valueOf E q s := by
  obtain ⟨s, hs0, hv⟩ := initialSchedule_ok hq.wellFormed
  have hsh : SameTimes j.makespan.params q := by rw [h.shape.params]; exact hs
  have hshape : MakespanShape q (j.makespan.setParams q) :=
    ⟨rfl, by simp only [Makespan.setParams, h.shape.tasks, hs.duration],
      by simp only [Makespan.setParams, h.shape.agents, hs.performance]⟩
  obtain ⟨m', t', h1, h2, h3, _, _, h4, _⟩ := tunnelingReset_ok (E := E) hq.wellFormed h.inv.gamma0
    hshape hv
  rw [tunnelingReset_sameTimes hsh, bind_eq_ok] at h1
  obtain ⟨⟨m₁, t₁⟩, h5, h6⟩ := h1
  simp only [ok.injEq, Prod.mk.injEq] at h6
  obtain ⟨rfl, rfl⟩ := h6
  obtain ⟨temp, htemp⟩ := h.temp.reset_ok
  unfold Job.reset
  rw [expects_true (by simpa [Job.setParams, h.batch] using ho.batch_pos), ok_bind]
  simp only [Job.setParams]
  simp only at hs0
  rw [hs0, ok_bind, h5, ok_bind]
  dsimp only
  rw [htemp, ok_bind]
  have hm₁ : m₁.params = j.makespan.params := by
    simp only [tunnelingReset, bind_eq_ok] at h5
    obtain ⟨_, _, t₃, _, t₄, _, h5⟩ := h5
    simp only [initEnergies, bind_eq_ok, Prod.exists] at h5
    obtain ⟨_, _, v, m₂, hc, _, _, _, _, _, _, _, _, h5⟩ := h5
    cases h5
    exact call_params hc
  refine ⟨_, rfl, ⟨h.batch, rfl, h2, h.temp.reset htemp, h3, ?_⟩, ?_, ?_⟩
  · intro s' hs'
    simp only at hs'
    rw [hs0] at hs'
    cases hs'
    exact h4.le
  · show SameTimes m₁.params q
    rw [hm₁]
    exact hsh
  · intro s' hs'
    cases hs'
    exact h4

theorem resetJobs_setParams (ho : ValidOptions E opts)
    (hq : ValidOptions E { opts with params := q }) (hs : SameTimes opts.params q)
    {jobs : List (Job K)} : (∀ j ∈ jobs, JobInv E opts j) →
    ∃ jobs', resetJobs E (jobs.map fun j => j.setParams q) = ok jobs' ∧
      jobs'.length = jobs.length ∧
      ∀ j' ∈ jobs', JobInv E { opts with params := q } (rebound q j') ∧
        SameTimes j'.makespan.params q ∧
        ∀ s, initialSchedule q = ok s → j'.stun.lowestE = valueOf E q s := by
  induction jobs with
  | nil => intro _; exact ⟨[], rfl, rfl, by simp⟩
  | cons j rest ih =>
    intro h
    obtain ⟨j', h1, h2⟩ := Job.reset_setParams ho hq hs (h j (by simp))
    obtain ⟨rest', g1, g2, g3⟩ := ih (fun x hx => h x (by simp [hx]))
    refine ⟨j' :: rest', ?_, by simp [g2], ?_⟩
    · simp only [List.map_cons, resetJobs, h1, ok_bind, g1]
      rfl
    · intro x hx
      rcases List.mem_cons.1 hx with rfl | hx
      · exact h2
      · exact g3 x hx

theorem Optimizer.reset_setParams (ho : ValidOptions E opts)
    (hq : ValidOptions E { opts with params := q }) (hs : SameTimes opts.params q)
    {ms : List K} {o : Optimizer K} {v : K} (h : OptInv E opts threads ms o v) :
    ∃ o' v', (o.setParams q).reset E = ok o' ∧
      OptInv E { opts with params := q } threads [] (reboundAll q o') v' ∧
      ∀ j ∈ o'.jobs, SameTimes j.makespan.params q := by
  obtain ⟨jobs, h1, h2, h3⟩ := resetJobs_setParams ho hq hs (fun j hj => (h.jobs j hj).1)
  obtain ⟨s, hs0, hv⟩ := initialSchedule_ok hq.wellFormed
  unfold Optimizer.reset
  simp only [Optimizer.setParams]
  rw [expects_true (by simpa [h.maxIdle] using ho.idle_pos), ok_bind,
    expects_true (by simpa [h.batch] using ho.batch_pos), ok_bind,
    expects_true (by simpa using h.jobs_ne), ok_bind, h1, ok_bind]
  refine ⟨_, valueOf E q s, rfl, ?_, fun j hj => (h3 j hj).2.1⟩
  constructor
  · exact h.batch
  · exact h.maxIdle
  · simp [unchanged, reboundAll]
  · simp [changes, reboundAll]
  · rfl
  · simp [reboundAll, h2, h.len]
  · exact h.threads_pos
  · intro j hj
    simp only [reboundAll, List.mem_map] at hj
    obtain ⟨j', hj', rfl⟩ := hj
    exact ⟨(h3 j' hj').1, (h3 j' hj').2.2 s hs0⟩
  · intro h; exact absurd rfl h
  · intro _ s' hs'
    simp only at hs' hs0
    rw [hs0] at hs'; cases hs'; rfl
  · exact .nil
  · exact le_rfl
  · exact zero_le_one

theorem rounds_rebound {o : Optimizer K} (hq : ValidOptions E opts) {ms : List K} {v : K}
    (h : OptInv E opts threads ms (reboundAll q o) v)
    (hs : ∀ j ∈ o.jobs, SameTimes j.makespan.params q)
    (draws : Nat → Nat → Nat → Draws K) (n : Nat) :
    ∃ o' ms' v', o.rounds E draws n = ok o' ∧ OptInv E opts threads ms' (reboundAll q o') v' ∧
      ∀ j ∈ o'.jobs, SameTimes j.makespan.params q := by
  induction n with
  | zero => exact ⟨o, ms, v, rfl, h, hs⟩
  | succ n ih =>
    obtain ⟨o₁, ms₁, v₁, h1, h2, h3⟩ := ih
    obtain ⟨o₂, v₂, _, g1, g2, _⟩ := Optimizer.update_ok hq h2 (draws n)
    rw [optUpdate_rebound h3, bind_eq_ok] at g1
    obtain ⟨o₃, g3, g4⟩ := g1
    cases g4
    refine ⟨o₃, _, v₂, ?_, g2, optUpdate_params g3 h3⟩
    simp only [Optimizer.rounds, h1, ok_bind, g3]

end
end Angonoka
