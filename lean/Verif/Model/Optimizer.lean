import Verif.Model.Stun
import Verif.Model.ExpCurve

/-!
# Optimizer

Model of `/repo/src/stun/optimizer_job.cpp` and `/repo/src/stun/optimizer.cpp` (the OpenMP
variant, which with one thread is the sequential one).
-/

namespace Angonoka.Stun
open Angonoka Outcome

variable {K : Type} [Field K] [LinearOrder K] [IsStrictOrderedRing K]

/-- Options of a job (`optimizer_job.h`) and of the optimizer (`optimizer.h`), without the
pointers. -/
structure Options (K : Type) where
  params : ScheduleParams K
  batchSize : Nat
  maxIdleIters : Nat
  betaScale : K
  stunWindow : Nat
  gamma : K
  restartPeriod : Nat
  deriving Repr

/-- `OptimizerJob`: the mutator's parameters, the makespan estimator (which has its own
pointer to parameters), the temperature and the tunneling state that refers to them. -/
structure Job (K : Type) where
  batchSize : Nat
  params : ScheduleParams K
  makespan : Makespan K
  temperature : Temperature K
  stun : Tunneling K
  deriving Repr

/-- Constructor (`optimizer_job.cpp:20-40`); the members are initialised before the
contracts of the body are checked. `Mutator`'s own contracts (`utils.cpp:216-222`) come first. -/
def Job.new (E : FloatEnv K) (o : Options K) : Outcome (Job K) := do
  expects (decide (0 < o.params.dependencies.size)) "Mutator: dependencies not empty"
  expects (decide (0 < o.params.availableAgents.size)) "Mutator: available_agents not empty"
  let m ← Makespan.new o.params
  let temp ← Temperature.new o.betaScale o.stunWindow o.restartPeriod
  let s ← initialSchedule o.params
  let (m, t) ← Tunneling.new E m o.gamma s
  expects (decide (0 < o.batchSize)) "OptimizerJob: batch_size > 0"
  return { batchSize := o.batchSize, params := o.params, makespan := m, temperature := temp,
           stun := t }

/-- One iteration of the loop in `OptimizerJob::update`. -/
def Job.step (E : FloatEnv K) (j : Job K) (d : Draws K) : Outcome (Job K) := do
  let (m, temp, t) ← tunnelingUpdate E j.params d j.makespan j.temperature j.stun
  return { j with makespan := m, temperature := temp, stun := t }

/-- The loop of `OptimizerJob::update` (`optimizer_job.cpp:46`) with the given draws,
one per iteration. -/
def Job.steps (E : FloatEnv K) : Job K → List (Draws K) → Outcome (Job K)
  | j, [] => ok j
  | j, d :: ds => do
    let j ← j.step E d
    j.steps E ds

/-- `OptimizerJob::update` (`optimizer_job.cpp:42-47`): `batch_size` iterations. `draws i` are the
draws of iteration `i`. -/
def Job.update (E : FloatEnv K) (j : Job K) (draws : Nat → Draws K) : Outcome (Job K) := do
  expects (decide (0 < j.batchSize)) "OptimizerJob::update: batch_size > 0"
  j.steps E ((List.range j.batchSize).map draws)

/-- `OptimizerJob::reset` (`optimizer_job.cpp:59-65`) -/
def Job.reset (E : FloatEnv K) (j : Job K) : Outcome (Job K) := do
  expects (decide (0 < j.batchSize)) "OptimizerJob::reset: batch_size > 0"
  let s ← initialSchedule j.params
  let (m, t) ← tunnelingReset E j.makespan j.stun s
  let temp ← j.temperature.reset
  return { j with makespan := m, temperature := temp, stun := t }

/-- Copy constructor and copy assignment (`optimizer_job.cpp:67-81, 99-122`): the assignment
copies and then moves the copy, and re-targets the pointers of the tunneling state to
the new siblings. -/
def Job.copy (j : Job K) : Outcome (Job K) := do
  let m ← j.makespan.copy
  let t ← j.stun.copy
  return { j with makespan := m, stun := t }

/-- `OptimizerJob::params(params)` (`optimizer_job.cpp:124-135`): only the mutator's parameters
change (and the random generator, not part of this model). -/
def Job.setParams (j : Job K) (p : ScheduleParams K) : Job K := { j with params := p }

/-- `OptimizerJob::normalized_makespan` (`optimizer_job.cpp:54-57`) -/
def Job.normalizedMakespan (j : Job K) : Outcome K := j.stun.normalizedMakespan

/-- `OptimizerJob::schedule` (`optimizer_job.cpp:49-52`) -/
def Job.schedule (j : Job K) : Outcome (List Item) := j.stun.schedule

/-- `Optimizer` (`optimizer.h:112-137`) -/
structure Optimizer (K : Type) where
  batchSize : Nat
  maxIdleIters : Nat
  idleIters : Nat
  epochs : Nat
  lastProgress : K
  lastMakespan : K
  expCurve : ExpCurve K
  jobs : List (Job K)
  deriving Repr

/-- Constructor (`optimizer.cpp:134-168`) with `threads` jobs. -/
def Optimizer.new (E : FloatEnv K) (o : Options K) (threads : Nat) : Outcome (Optimizer K) := do
  expects (decide (0 < o.batchSize)) "Optimizer: batch_size > 0"
  expects (decide (0 < o.maxIdleIters)) "Optimizer: max_idle_iters > 0"
  let jobs ← (List.replicate threads ()).mapM fun _ => Job.new E o
  expects (!jobs.isEmpty) "Optimizer: jobs not empty"
  return { batchSize := o.batchSize, maxIdleIters := o.maxIdleIters, idleIters := 0, epochs := 0,
           lastProgress := 0, lastMakespan := 0, expCurve := ExpCurve.zero, jobs := jobs }

/-- `Impl::best_job` (`optimizer.cpp:96-101`) -/
def Optimizer.bestJob (o : Optimizer K) : Outcome (Job K) := at? o.jobs 0 "best_job: jobs not empty"

/-- `Optimizer::normalized_makespan` (`optimizer.cpp:217-222`) -/
def Optimizer.normalizedMakespan (o : Optimizer K) : Outcome K := do
  let j ← o.bestJob
  j.normalizedMakespan

/-- `Optimizer::schedule` (`optimizer.cpp:210-215`) -/
def Optimizer.schedule (o : Optimizer K) : Outcome (List Item) := do
  let j ← o.bestJob
  j.schedule

/-- `ranges::min` with the makespan as projection (`optimizer.cpp:117-120`): the first job with
the least makespan. -/
def minJob : Job K → List (Job K) → Outcome (Job K)
  | best, [] => ok best
  | best, j :: rest => do
    let b ← best.normalizedMakespan
    let c ← j.normalizedMakespan
    minJob (if c < b then j else best) rest

/-- Loop of `replicate_best_job` (`optimizer.cpp:124-129`) -/
def replicateLoop (target : Job K) (bestMakespan : K) (params : ScheduleParams K) :
    List (Job K) → Outcome (List (Job K))
  | [] => ok []
  | j :: rest => do
    let e ← j.normalizedMakespan
    let j ← if e = bestMakespan then pure j
            else do
              let c ← target.copy
              pure (c.setParams params)
    let rest ← replicateLoop target bestMakespan params rest
    return j :: rest

/-- `Impl::replicate_best_job` (`optimizer.cpp:113-130`). `ranges::min` returns a copy of the
slot, hence the `copy`. -/
def replicateBestJob (jobs : List (Job K)) : Outcome (List (Job K)) := do
  match jobs with
  | [] => ub "replicate_best_job: jobs not empty"
  | first :: rest => do
    let best ← minJob first rest
    let target ← best.copy
    let bestMakespan ← target.normalizedMakespan
    replicateLoop target bestMakespan first.params jobs

/-- `Impl::progress` (`optimizer.cpp:41-48`) -/
def Optimizer.progress (E : FloatEnv K) (o : Optimizer K) : Outcome K := do
  expects (decide (0 < o.maxIdleIters)) "progress: max_idle_iters > 0"
  return E.div (E.ofInt o.idleIters) (E.ofInt o.maxIdleIters)

/-- `Impl::interpolate_progress` (`optimizer.cpp:56-67`). Division by a zero `next_expected`
gives an infinity or NaN in the code and 0 here; `at` ignores its argument in that case
(both are zero only if the curve has no fit yet) unless the exponential underflows. -/
def Optimizer.interpolateProgress (E : FloatEnv K) (o : Optimizer K) : Outcome (Optimizer K) := do
  let p ← o.progress E
  let nextExpected := o.expCurve.at E (E.ofInt (o.epochs + 1 : Nat))
  let nextEpoch := E.add (E.ofInt o.epochs) (E.div p nextExpected)
  return { o with lastProgress := min (o.expCurve.at E nextEpoch) 1 }

/-- `Impl::estimate_progress` (`optimizer.cpp:75-89`) -/
def Optimizer.estimateProgress (E : FloatEnv K) (o : Optimizer K) : Outcome (Optimizer K) := do
  let p ← o.progress E
  let e ← o.normalizedMakespan
  let epochs := o.epochs + 1
  let (v, curve) ← o.expCurve.call E (E.ofInt epochs) p
  let o := { o with lastMakespan := e, epochs := epochs, expCurve := curve,
                    lastProgress := min v 1, idleIters := 0 }
  expects (decide (0 ≤ o.lastProgress)) "estimate_progress: last_progress >= 0"
  return o

/-- The parallel loop over the jobs (`optimizer.cpp:176-177`); `draws k i` are the draws of job
`k` in iteration `i`. The jobs share no state; `Verif.Props.Optimizer` shows that every
interleaving of their iterations gives this result. -/
def updateJobs (E : FloatEnv K) (draws : Nat → Nat → Draws K) :
    Nat → List (Job K) → Outcome (List (Job K))
  | _, [] => ok []
  | k, j :: rest => do
    let j ← j.update E (draws k)
    let rest ← updateJobs E draws (k + 1) rest
    return j :: rest

/-- `Optimizer::update` (`optimizer.cpp:170-190`) -/
def Optimizer.update (E : FloatEnv K) (o : Optimizer K) (draws : Nat → Nat → Draws K) :
    Outcome (Optimizer K) := do
  expects (decide (0 < o.batchSize)) "Optimizer::update: batch_size > 0"
  expects (!o.jobs.isEmpty) "Optimizer::update: jobs not empty"
  let jobs ← updateJobs E draws 0 o.jobs
  let jobs ← replicateBestJob jobs
  let o := { o with jobs := jobs, idleIters := o.idleIters + o.batchSize }
  let e ← o.normalizedMakespan
  if e = o.lastMakespan then o.interpolateProgress E
  else o.estimateProgress E

/-- `Optimizer::has_converged` (`optimizer.cpp:192-197`), without its contract. -/
def Optimizer.hasConverged (o : Optimizer K) : Bool := decide (o.maxIdleIters ≤ o.idleIters)

/-- `Optimizer::estimated_progress` (`optimizer.cpp:199-208`) -/
def Optimizer.estimatedProgress (o : Optimizer K) : K :=
  if o.hasConverged then 1
  else if o.epochs < 5 then 0
  else o.lastProgress

/-- Loop over the jobs in `Optimizer::reset` (`optimizer.cpp:236`) -/
def resetJobs (E : FloatEnv K) : List (Job K) → Outcome (List (Job K))
  | [] => ok []
  | j :: rest => do
    let j ← j.reset E
    let rest ← resetJobs E rest
    return j :: rest

/-- `Optimizer::reset` (`optimizer.cpp:224-237`) -/
def Optimizer.reset (E : FloatEnv K) (o : Optimizer K) : Outcome (Optimizer K) := do
  expects (decide (0 < o.maxIdleIters)) "Optimizer::reset: max_idle_iters > 0"
  expects (decide (0 < o.batchSize)) "Optimizer::reset: batch_size > 0"
  expects (!o.jobs.isEmpty) "Optimizer::reset: jobs not empty"
  let jobs ← resetJobs E o.jobs
  return { o with idleIters := 0, epochs := 0, lastProgress := 0, lastMakespan := 0,
                  expCurve := ExpCurve.zero, jobs := jobs }

/-- `Optimizer::params(params)` (`optimizer.cpp:239-246`) -/
def Optimizer.setParams (o : Optimizer K) (p : ScheduleParams K) : Optimizer K :=
  { o with jobs := o.jobs.map fun j => j.setParams p }

/-- Copies of the jobs, in order -/
def copyJobs : List (Job K) → Outcome (List (Job K))
  | [] => ok []
  | j :: rest => do
    let j ← j.copy
    let rest ← copyJobs rest
    return j :: rest

/-- The implicit copy constructor of `Optimizer`: memberwise, the vector of slots copies each job. Which
random generators the copies use is modelled in `Verif.Model.Slots`. -/
def Optimizer.copy (o : Optimizer K) : Outcome (Optimizer K) := do
  let jobs ← copyJobs o.jobs
  return { o with jobs := jobs }

end Angonoka.Stun
