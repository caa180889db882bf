import Verif.Model.HistogramOp
import Verif.Model.Optimizer

/-!
# Prediction and schedule optimization

Model of `/repo/src/predict.cpp`. The body of the asynchronous task is a computation that puts events into the queue;
an event put into the queue stays there if the computation fails later, so a run is the list of events and an outcome. Which
thread runs what and the queue itself are in `Verif.Model.Events`.
-/

namespace Angonoka
open Outcome Stun

/-- `SimpleProgressEvent` (`predict.h:68-72`) -/
inductive SimpleEvent where
  | scheduleOptimizationStart
  | simulationStart
  | finished
  deriving DecidableEq, Repr

/-- `ProgressEvent` (`predict.h:81-102`) -/
inductive Event (K : Type) where
  | simple (e : SimpleEvent)
  | optimization (progress : K) (makespan : Int) (currentEpoch : Nat)
  | complete (makespan : Int)
  deriving DecidableEq, Repr

/-- A computation that enqueues events: the events it has enqueued and how it ended. -/
structure Run (K α : Type) where
  events : List (Event K)
  result : Outcome α

namespace Run
variable {K α β : Type}

/-- Continue if the computation has returned. -/
def bind (x : Run K α) (f : α → Run K β) : Run K β :=
  match x.result with
  | ok a => ⟨x.events ++ (f a).events, (f a).result⟩
  | throws e => ⟨x.events, throws e⟩
  | ub s => ⟨x.events, ub s⟩

instance : Monad (Run K) where
  pure a := ⟨[], ok a⟩
  bind := Run.bind

/-- `events.enqueue(e)` -/
def enqueue (e : Event K) : Run K Unit := ⟨[e], ok ()⟩

/-- A computation that enqueues nothing. -/
def lift (x : Outcome α) : Run K α := ⟨[], x⟩

end Run

variable {K : Type} [Field K] [LinearOrder K] [IsStrictOrderedRing K]

/-- `OptimizationParameters` (`project.h:133-151`), as set by `parse_opt_params` (`cli/cli.cpp:147-157`); the
signed integers are naturals here, the command line rejects negative ones. -/
structure OptParams (K : Type) where
  batchSize : Nat
  maxIdleIters : Nat
  betaScale : K
  stunWindow : Nat
  gamma : K
  restartPeriod : Nat

/-- The optimizer's options (`predict.cpp:64-71`) -/
def OptParams.options (o : OptParams K) (sp : ScheduleParams K) : Stun.Options K where
  params := sp
  batchSize := o.batchSize
  maxIdleIters := o.maxIdleIters
  betaScale := o.betaScale
  stunWindow := o.stunWindow
  gamma := o.gamma
  restartPeriod := o.restartPeriod

/-- `OptimizedSchedule` (`predict.h:34-37`) -/
structure OptimizedSchedule where
  schedule : List Item
  makespan : Int

/-- `Prediction` (`predict.h:55-60`) -/
structure Prediction where
  histogram : Histogram
  stats : HistogramStats
  schedule : List Item
  makespan : Int

namespace Predict

variable [FloorRing K]

/-- `makespan(optimizer, params)` (`predict.cpp:28-38`). `gsl::narrow` starts with a conversion
that is undefined beyond 64 bits; a whole number within 64 bits passes its check. -/
def makespan (E : FloatEnv K) (sp : ScheduleParams K) (normalized : K) : Outcome Int := do
  let x := Simulation.truncate (E.mul normalized sp.durationMultiplier)
  expects (decide (-2 ^ 63 ≤ x ∧ x < 2 ^ 63)) "makespan: float to integer conversion"
  return x

/-- The loop of `optimize` (`predict.cpp:73-79`), at most `fuel` times; `none`: not converged yet.
`draws n` are the random numbers of round `n`. -/
def optimizeLoop (E : FloatEnv K) (sp : ScheduleParams K) (draws : Nat → Nat → Nat → Draws K) :
    Nat → Nat → Optimizer K → Run K (Option (Optimizer K))
  | 0, _, _ => pure none
  | fuel + 1, n, o =>
    if o.hasConverged then pure (some o)
    else do
      let o ← Run.lift (o.update E (draws n))
      let v ← Run.lift o.normalizedMakespan
      let m ← Run.lift (makespan E sp v)
      Run.enqueue (.optimization o.estimatedProgress m o.epochs)
      optimizeLoop E sp draws fuel (n + 1) o

/-- `optimize` (`predict.cpp:48-85`) -/
def optimize (E : FloatEnv K) (sp : ScheduleParams K) (opt : OptParams K) (threads : Nat)
    (draws : Nat → Nat → Nat → Draws K) (fuel : Nat) : Run K (Option OptimizedSchedule) := do
  Run.lift (expects (!sp.agentPerformance.isEmpty) "optimize: agent_performance not empty")
  Run.lift (expects (!sp.taskDuration.isEmpty) "optimize: task_duration not empty")
  Run.lift (expects (decide (0 < sp.availableAgents.size)) "optimize: available_agents not empty")
  Run.lift (expects (decide (sp.availableAgents.size = sp.taskDuration.length)) "optimize: sizes")
  let o ← Run.lift (Optimizer.new E (opt.options sp) threads)
  let r ← optimizeLoop E sp draws fuel 0 o
  match r with
  | none => pure none
  | some o => do
    let s ← Run.lift o.schedule
    let v ← Run.lift o.normalizedMakespan
    let m ← Run.lift (makespan E sp v)
    pure (some ⟨s, m⟩)

/-- The asynchronous task of `schedule(config)` (`predict.cpp:125-135`) -/
def schedule (E : FloatEnv K) (config : Project) (opt : OptParams K) (threads : Nat)
    (draws : Nat → Nat → Nat → Draws K) (fuel : Nat) : Run K (Option OptimizedSchedule) := do
  Run.enqueue (.simple .scheduleOptimizationStart)
  let sp ← Run.lift (toScheduleParams E config)
  let r ← optimize E sp opt threads draws fuel
  match r with
  | none => pure none
  | some r => do
    Run.enqueue (.complete r.makespan)
    Run.enqueue (.simple .finished)
    pure (some r)

/-- The asynchronous task of `predict(config)` (`predict.cpp:96-114`). `more`, `fuel'` and `zs`: see
`Verif.Model.HistogramOp`. -/
def predict (E : FloatEnv K) (config : Project) (binSize : Option Int) (opt : OptParams K)
    (threads : Nat) (draws : Nat → Nat → Nat → Draws K) (fuel : Nat)
    (more : List Int → Outcome Bool) (fuel' : Nat) (zs : List K) : Run K (Option Prediction) := do
  Run.enqueue (.simple .scheduleOptimizationStart)
  let sp ← Run.lift (toScheduleParams E config)
  let r ← optimize E sp opt threads draws fuel
  match r with
  | none => pure none
  | some r => do
    Run.enqueue (.complete r.makespan)
    Run.enqueue (.simple .simulationStart)
    let h ← Run.lift (histogram E config binSize r.schedule r.makespan more fuel' zs)
    match h with
    | none => pure none
    | some h => do
      let st ← Run.lift (stats E h)
      Run.enqueue (.simple .finished)
      pure (some { histogram := h, stats := st, schedule := r.schedule, makespan := r.makespan })

end Predict
end Angonoka
