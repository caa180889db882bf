import Verif.Proof.NamesRun

/-! # Optimization does not look at the duration multiplier -/

set_option linter.unusedSectionVars false

namespace Angonoka.Stun
open Angonoka Outcome

variable {K : Type} [Field K] [LinearOrder K] [IsStrictOrderedRing K]
variable {E : FloatEnv K} {c : K}

/-- The parameters with another multiplier -/
def ScheduleParams.retimed (c : K) (p : ScheduleParams K) : ScheduleParams K := { p with durationMultiplier := c }

theorem push_retimed (p : ScheduleParams K) (fuel : Nat) :
    (∀ st i, pushTask (ScheduleParams.retimed c p) fuel st i = pushTask p fuel st i) ∧
      ∀ l st, pushTasks (ScheduleParams.retimed c p) fuel st l = pushTasks p fuel st l := by
  have step : ∀ fuel, (∀ st i, pushTask (ScheduleParams.retimed c p) fuel st i = pushTask p fuel st i) →
      ∀ l st, pushTasks (ScheduleParams.retimed c p) fuel st l = pushTasks p fuel st l := fun fuel h l => by
    induction l with
    | nil => intro st; simp [pushTasks]
    | cons d rest ih => intro st; simp only [pushTasks, h, ih]
  induction fuel with
  | zero =>
    have h : ∀ st i, pushTask (ScheduleParams.retimed c p) 0 st i = pushTask p 0 st i := fun st i => by simp [pushTask]
    exact ⟨h, step 0 h⟩
  | succ fuel ih =>
    have h : ∀ st i, pushTask (ScheduleParams.retimed c p) (fuel + 1) st i = pushTask p (fuel + 1) st i := fun st i => by
      simp only [pushTask, ih.2]
      rfl
    exact ⟨h, step _ h⟩

theorem initialLoop_retimed (p : ScheduleParams K) (k : Nat) (st : PushState) :
    initialLoop (ScheduleParams.retimed c p) k st = initialLoop p k st := by
  induction k generalizing st with
  | zero => rfl
  | succ k ih =>
    simp only [initialLoop, (push_retimed p _).1, ih]
    rfl

theorem initialSchedule_retimed (p : ScheduleParams K) :
    initialSchedule (ScheduleParams.retimed c p) = initialSchedule p := by
  unfold initialSchedule
  simp only [initialLoop_retimed]
  rfl

theorem mutate_retimed (p : ScheduleParams K) (d : Draws K) (s : List Item) :
    mutate (ScheduleParams.retimed c p) d s = mutate p d s := rfl

/-- The estimator with another multiplier -/
def Makespan.retimed (c : K) (m : Makespan K) : Makespan K := { m with params := ScheduleParams.retimed c m.params }

theorem makespan_new_retimed (p : ScheduleParams K) :
    Makespan.new (ScheduleParams.retimed c p) = Makespan.retimed c <$> Makespan.new p := by
  unfold Makespan.new
  exact bind_same fun _ => bind_same fun _ => rfl

theorem makespan_copy_retimed (m : Makespan K) : (m.retimed c).copy = Makespan.retimed c <$> m.copy := by
  unfold Makespan.copy
  exact map_bind' (makespan_new_retimed _) fun _ => bind_same fun _ => rfl

theorem makespanLoop_retimed (m : Makespan K) (l : List Item) (td wd : List K) :
    makespanLoop E (m.retimed c) l td wd = makespanLoop E m l td wd := by
  induction l generalizing td wd with
  | nil => rfl
  | cons it rest ih =>
    obtain ⟨task, agent⟩ := it
    simp only [makespanLoop, ih]
    rfl

theorem makespan_call_retimed (m : Makespan K) (s : List Item) :
    (m.retimed c).call E s = (fun r => (r.1, r.2.retimed c)) <$> m.call E s := by
  unfold Makespan.call
  refine bind_same fun _ => bind_same fun _ => bind_same fun _ => ?_
  rw [makespanLoop_retimed]
  exact bind_same fun _ => rfl

theorem neighbor_retimed (p : ScheduleParams K) (d : Draws K) (m : Makespan K) (t : Tunneling K) :
    getNewNeighbor E (ScheduleParams.retimed c p) d (m.retimed c) t
      = (fun r => (r.1.retimed c, r.2)) <$> getNewNeighbor E p d m t := by
  unfold getNewNeighbor
  refine bind_same fun _ => bind_same fun _ => ?_
  exact bind_same (x := mutate p d _) fun s => map_bind' (makespan_call_retimed m _) fun r => bind_same fun _ => rfl

theorem tunnelingUpdate_retimed (p : ScheduleParams K) (d : Draws K) (m : Makespan K) (temp : Temperature K) (t : Tunneling K) :
    tunnelingUpdate E (ScheduleParams.retimed c p) d (m.retimed c) temp t
      = (fun r => (r.1.retimed c, r.2)) <$> tunnelingUpdate E p d m temp t := by
  unfold tunnelingUpdate
  refine bind_same fun _ => bind_same fun _ => map_bind' (neighbor_retimed p d m t) fun r => bind_same fun b => ?_
  obtain ⟨b, t⟩ := b
  dsimp only
  cases b with
  | true => rfl
  | false => exact bind_same fun _ => rfl

theorem initEnergies_retimed (m : Makespan K) (t : Tunneling K) :
    initEnergies E (m.retimed c) t = (fun r => (r.1.retimed c, r.2)) <$> initEnergies E m t := by
  unfold initEnergies
  exact bind_same fun _ => map_bind' (makespan_call_retimed m _) fun r => bind_same fun _ => bind_same fun _ =>
    bind_same fun _ => bind_same fun _ => rfl

theorem tunneling_new_retimed (m : Makespan K) (g : K) (s : List Item) :
    Tunneling.new E (m.retimed c) g s = (fun r => (r.1.retimed c, r.2)) <$> Tunneling.new E m g s := by
  unfold Tunneling.new tunnelingReset
  exact bind_same fun _ => bind_same fun _ => bind_same fun _ => bind_same fun _ => initEnergies_retimed m _

/-- The job with another multiplier -/
def Job.retimed (c : K) (j : Job K) : Job K :=
  { j with params := ScheduleParams.retimed c j.params, makespan := j.makespan.retimed c }

/-- The options with another multiplier -/
def Options.retimed (c : K) (o : Options K) : Options K := { o with params := ScheduleParams.retimed c o.params }

theorem job_new_retimed (o : Options K) : Job.new E (o.retimed c) = Job.retimed c <$> Job.new E o := by
  unfold Job.new
  refine bind_same fun _ => bind_same fun _ => map_bind' (makespan_new_retimed _) fun m => bind_same fun temp => ?_
  rw [show (o.retimed c).params = ScheduleParams.retimed c o.params from rfl, initialSchedule_retimed]
  exact bind_same fun s => map_bind' (tunneling_new_retimed m _ s) fun r => bind_same fun _ => rfl

theorem job_step_retimed (j : Job K) (d : Draws K) : (j.retimed c).step E d = Job.retimed c <$> j.step E d := by
  unfold Job.step
  exact map_bind' (tunnelingUpdate_retimed _ _ _ _ _) fun r => rfl

theorem job_steps_retimed (l : List (Draws K)) (j : Job K) : (j.retimed c).steps E l = Job.retimed c <$> j.steps E l := by
  induction l generalizing j with
  | nil => rfl
  | cons d rest ih => exact map_bind' (job_step_retimed j d) fun j => ih j

theorem job_update_retimed (j : Job K) (d : Nat → Draws K) : (j.retimed c).update E d = Job.retimed c <$> j.update E d := by
  unfold Job.update
  exact bind_same fun _ => job_steps_retimed _ j

theorem job_copy_retimed (j : Job K) : (j.retimed c).copy = Job.retimed c <$> j.copy := by
  unfold Job.copy
  exact map_bind' (makespan_copy_retimed _) fun m => bind_same fun t => rfl

/-- The optimizer with another multiplier -/
def Optimizer.retimed (c : K) (o : Optimizer K) : Optimizer K := { o with jobs := o.jobs.map (Job.retimed c) }

theorem jobs_new_retimed (o : Options K) (l : List Unit) :
    (l.mapM fun _ => Job.new E (o.retimed c)) = List.map (Job.retimed c) <$> l.mapM fun _ => Job.new E o := by
  induction l with
  | nil => rfl
  | cons a rest ih =>
    rw [List.mapM_cons, List.mapM_cons]
    exact map_bind' (job_new_retimed o) fun j => map_bind' ih fun js => rfl

theorem new_retimed (o : Options K) (threads : Nat) :
    Optimizer.new E (o.retimed c) threads = Optimizer.retimed c <$> Optimizer.new E o threads := by
  unfold Optimizer.new
  refine bind_same fun _ => bind_same fun _ => map_bind' (jobs_new_retimed o _) fun js => ?_
  rw [List.isEmpty_map]
  exact bind_same fun _ => rfl

theorem best_retimed (o : Optimizer K) : (o.retimed c).bestJob = Job.retimed c <$> o.bestJob := at_map _ _ _ _

theorem normalized_retimed (o : Optimizer K) : (o.retimed c).normalizedMakespan = o.normalizedMakespan := by
  refine Eq.trans ?_ (id_map _)
  exact map_bind' (best_retimed o) fun j => (id_map _).symm

theorem schedule_retimed (o : Optimizer K) : (o.retimed c).schedule = o.schedule := by
  refine Eq.trans ?_ (id_map _)
  exact map_bind' (best_retimed o) fun j => (id_map _).symm

theorem minJob_retimed (l : List (Job K)) (j : Job K) :
    minJob (j.retimed c) (l.map (Job.retimed c)) = Job.retimed c <$> minJob j l := by
  induction l generalizing j with
  | nil => rfl
  | cons i rest ih =>
    rw [List.map_cons, minJob, minJob]
    refine bind_same (x := j.normalizedMakespan) fun b => bind_same (x := i.normalizedMakespan) fun e => ?_
    rw [← apply_ite (Job.retimed c)]
    exact ih _

theorem replicate_retimed (target : Job K) (b : K) (p : ScheduleParams K) (l : List (Job K)) :
    replicateLoop (target.retimed c) b (ScheduleParams.retimed c p) (l.map (Job.retimed c))
      = List.map (Job.retimed c) <$> replicateLoop target b p l := by
  induction l with
  | nil => rfl
  | cons i rest ih =>
    rw [List.map_cons, replicateLoop, replicateLoop]
    refine bind_same (x := i.normalizedMakespan) fun e => ?_
    dsimp only
    split
    · exact map_bind' (g := Job.retimed c) rfl fun j => map_bind' ih fun js => rfl
    · exact map_bind' (job_copy_retimed target) fun j => map_bind' (g := Job.retimed c) rfl fun j => map_bind' ih fun js => rfl

theorem replicateBest_retimed (l : List (Job K)) :
    replicateBestJob (l.map (Job.retimed c)) = List.map (Job.retimed c) <$> replicateBestJob l := by
  cases l with
  | nil => rfl
  | cons j rest =>
    refine map_bind' (minJob_retimed rest j) fun best => map_bind' (job_copy_retimed best) fun t => ?_
    exact bind_same (x := t.normalizedMakespan) fun b => replicate_retimed t b j.params (j :: rest)

theorem updateJobs_retimed (draws : Nat → Nat → Draws K) (l : List (Job K)) (k : Nat) :
    updateJobs E draws k (l.map (Job.retimed c)) = List.map (Job.retimed c) <$> updateJobs E draws k l := by
  induction l generalizing k with
  | nil => rfl
  | cons j rest ih =>
    exact map_bind' (job_update_retimed j _) fun j => map_bind' (ih _) fun js => rfl

theorem interpolate_retimed (o : Optimizer K) :
    (o.retimed c).interpolateProgress E = Optimizer.retimed c <$> o.interpolateProgress E := by
  unfold Optimizer.interpolateProgress
  exact bind_same (x := o.progress E) fun p => rfl

theorem estimate_retimed (o : Optimizer K) :
    (o.retimed c).estimateProgress E = Optimizer.retimed c <$> o.estimateProgress E := by
  unfold Optimizer.estimateProgress
  rw [normalized_retimed]
  exact bind_same (x := o.progress E) fun p => bind_same fun e => bind_same fun r => bind_same fun _ => rfl

theorem update_retimed (o : Optimizer K) (draws : Nat → Nat → Draws K) :
    (o.retimed c).update E draws = Optimizer.retimed c <$> o.update E draws := by
  unfold Optimizer.update
  rw [show (o.retimed c).jobs.isEmpty = o.jobs.isEmpty from List.isEmpty_map]
  refine bind_same fun _ => bind_same fun _ => map_bind' (updateJobs_retimed draws _ 0) fun js =>
    map_bind' (replicateBest_retimed js) fun js' => ?_
  refine map_bind' (g := id) ?_ fun e => ?_
  · rw [id_map]
    exact normalized_retimed { o with jobs := js', idleIters := o.idleIters + o.batchSize }
  · dsimp only [id]
    change (if e = o.lastMakespan then _ else _) = _
    split
    · exact interpolate_retimed { o with jobs := js', idleIters := o.idleIters + o.batchSize }
    · exact estimate_retimed { o with jobs := js', idleIters := o.idleIters + o.batchSize }

end Angonoka.Stun
