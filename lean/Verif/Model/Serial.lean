import Verif.Model.Cli

/-!
# The build without OpenMP

Meson's option `openmp` (`/repo/meson_options.txt:2`, `/repo/meson.build:36`) decides whether `ANGONOKA_OPENMP` is
defined (`/repo/src/meson.build:49`). `Verif.Model.Optimizer` models the branches with it; here are the branches
without it and the functions that depend on them.
-/

namespace Angonoka
open Outcome Stun

namespace Serial

variable {K : Type} [Field K] [LinearOrder K] [IsStrictOrderedRing K]

/-- Constructor, `#else` branch (`stun/optimizer.cpp:151-168`): `max_threads = 1`. -/
def new (E : FloatEnv K) (o : Options K) : Outcome (Optimizer K) := Optimizer.new E o 1

/-- Replace the first element, `jobs.front() = …`; undefined for the empty vector. -/
def setFront {α : Type} (l : List α) (a : α) : Outcome (List α) :=
  match l with
  | [] => ub "front of an empty vector"
  | _ :: rest => ok (a :: rest)

/-- `Optimizer::update`, `#else` branch (`stun/optimizer.cpp:170-190`): only the first job is updated, and there is
no replication of the best job. `draws i` are the draws of iteration `i` of the job. -/
def update (E : FloatEnv K) (o : Optimizer K) (draws : Nat → Draws K) : Outcome (Optimizer K) := do
  expects (decide (0 < o.batchSize)) "Optimizer::update: batch_size > 0"
  expects (!o.jobs.isEmpty) "Optimizer::update: jobs not empty"
  let j ← at? o.jobs 0 "front of an empty vector"
  let j ← j.update E draws
  let jobs ← setFront o.jobs j
  let o := { o with jobs := jobs, idleIters := o.idleIters + o.batchSize }
  let e ← o.normalizedMakespan
  if e = o.lastMakespan then o.interpolateProgress E
  else o.estimateProgress E

/-- `n` rounds of updates; round `k` uses the random numbers `draws k`. -/
def rounds (E : FloatEnv K) (draws : Nat → Nat → Draws K) : Nat → Optimizer K → Outcome (Optimizer K)
  | 0, o => ok o
  | n + 1, o => do
    let o ← rounds E draws n o
    update E o (draws n)

variable [FloorRing K]

/-- The loop of `optimize` (`predict.cpp:73-79`), at most `fuel` times; `none`: not converged yet. -/
def optimizeLoop (E : FloatEnv K) (sp : ScheduleParams K) (draws : Nat → Nat → Draws K) :
    Nat → Nat → Optimizer K → Run K (Option (Optimizer K))
  | 0, _, _ => pure none
  | fuel + 1, n, o =>
    if o.hasConverged then pure (some o)
    else do
      let o ← Run.lift (update E o (draws n))
      let v ← Run.lift o.normalizedMakespan
      let m ← Run.lift (Predict.makespan E sp v)
      Run.enqueue (.optimization o.estimatedProgress m o.epochs)
      optimizeLoop E sp draws fuel (n + 1) o

/-- `optimize` (`predict.cpp:48-85`) -/
def optimize (E : FloatEnv K) (sp : ScheduleParams K) (opt : OptParams K)
    (draws : Nat → Nat → Draws K) (fuel : Nat) : Run K (Option OptimizedSchedule) := do
  Run.lift (expects (!sp.agentPerformance.isEmpty) "optimize: agent_performance not empty")
  Run.lift (expects (!sp.taskDuration.isEmpty) "optimize: task_duration not empty")
  Run.lift (expects (decide (0 < sp.availableAgents.size)) "optimize: available_agents not empty")
  Run.lift (expects (decide (sp.availableAgents.size = sp.taskDuration.length)) "optimize: sizes")
  let o ← Run.lift (new E (opt.options sp))
  let r ← optimizeLoop E sp draws fuel 0 o
  match r with
  | none => pure none
  | some o => do
    let s ← Run.lift o.schedule
    let v ← Run.lift o.normalizedMakespan
    let m ← Run.lift (Predict.makespan E sp v)
    pure (some ⟨s, m⟩)

/-- The asynchronous task of `schedule(config)` (`predict.cpp:125-135`) -/
def schedule (E : FloatEnv K) (config : Project) (opt : OptParams K)
    (draws : Nat → Nat → Draws K) (fuel : Nat) : Run K (Option OptimizedSchedule) := do
  Run.enqueue (.simple .scheduleOptimizationStart)
  let sp ← Run.lift (toScheduleParams E config)
  let r ← optimize E sp opt draws fuel
  match r with
  | none => pure none
  | some r => do
    Run.enqueue (.complete r.makespan)
    Run.enqueue (.simple .finished)
    pure (some r)

/-- The asynchronous task of `predict(config)` (`predict.cpp:96-114`). `more`, `fuel'` and `zs`: see
`Verif.Model.HistogramOp`. -/
def predict (E : FloatEnv K) (config : Project) (binSize : Option Int) (opt : OptParams K)
    (draws : Nat → Nat → Draws K) (fuel : Nat)
    (more : List Int → Outcome Bool) (fuel' : Nat) (zs : List K) : Run K (Option Prediction) := do
  Run.enqueue (.simple .scheduleOptimizationStart)
  let sp ← Run.lift (toScheduleParams E config)
  let r ← optimize E sp opt draws fuel
  match r with
  | none => pure none
  | some r => do
    Run.enqueue (.complete r.makespan)
    Run.enqueue (.simple .simulationStart)
    let h ← Run.lift (histogram E config binSize r.schedule r.makespan more fuel' zs)
    match h with
    | none => pure none
    | some h => do
      let st ← Run.lift (stats E h)
      Run.enqueue (.simple .finished)
      pure (some { histogram := h, stats := st, schedule := r.schedule, makespan := r.makespan })

/-- `json_schedule` (`cli/schedule.cpp:170-188`). Of the machine's random numbers the only job uses those of the
first thread. -/
def jsonSchedule (E : FloatEnv K) (m : Cli.Machine K) (config : Project) (o : Cli.Options K) : Cli.Io K Json := do
  Cli.Io.lift (expects (!config.tasks.isEmpty) "json_schedule: tasks not empty")
  Cli.Io.lift (expects (!config.agents.isEmpty) "json_schedule: agents not empty")
  let r := schedule E config o.opt (fun k => m.draws k 0) m.fuel
  (if o.quiet then pure () else Cli.consumeEvents m.logWritable m.columns o r)
  let s ← Cli.getFuture r
  Cli.Io.lift (Timetable.toJson E config s.schedule s.makespan)

/-- `run_prediction` (`cli/cli.cpp:116-145`) -/
def runPrediction (E : FloatEnv K) (m : Cli.Machine K) (config : Project) (o : Cli.Options K) : Cli.Io K Json := do
  Cli.Io.lift (expects (!config.tasks.isEmpty) "run_prediction: tasks not empty")
  Cli.Io.lift (expects (!config.agents.isEmpty) "run_prediction: agents not empty")
  let r := predict E config o.binSize o.opt (fun k => m.draws k 0) m.fuel m.more m.fuel' m.zs
  (if o.quiet then pure () else Cli.consumeEvents m.logWritable m.columns o r)
  let p ← Cli.getFuture r
  Cli.printHistogramStats o p.stats
  let j ← Cli.Io.lift (Timetable.toJson E config p.schedule p.makespan)
  let j ← Cli.Io.lift (Cli.setField j "stats" p.stats.toJson)
  let h ← Cli.Io.lift p.histogram.toJson
  Cli.Io.lift (Cli.setField j "histogram" h)

/-- `main` after the command line has been parsed, inside its `try` (`main.cpp:175-191`) -/
def body (E : FloatEnv K) (m : Cli.Machine K) (c : Cli.Command) (o : Cli.Options K) : Cli.Io K Unit := do
  let config ← Cli.parseConfig m o
  match c with
  | .schedule => do
    let j ← jsonSchedule E m config o
    Cli.saveJson m o "Error saving the schedule:\n" ("Saving the optimized schedule to \"" ++ o.output ++ "\".\n") j
  | .predict => do
    let j ← runPrediction E m config o
    Cli.saveJson m o "Error saving the prediction results:\n" ("Time estimation written to \"" ++ o.output ++ "\"\n") j

end Serial
end Angonoka
