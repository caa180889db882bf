import Verif.Model.Simulation
import Verif.Model.Stats

/-!
# JSON output

Model of `to_json` and its helpers in `/repo/src/cli/schedule.cpp` and `/repo/src/cli/cli.cpp`. For the text of
a `nlohmann::json` value see `Model/JsonText`.
-/

namespace Angonoka
open Outcome Stun

/-- The kinds of `nlohmann::json` values that occur; objects are sorted by key. -/
inductive Json where
  | int (i : Int)
  | str (s : String)
  | arr (l : List Json)
  | obj (l : List (String × Json))

/-- An element of `tasks` in the schedule's JSON (`cli/schedule.cpp:153-158`). -/
structure TaskEntry where
  task : String
  agent : String
  priority : Nat
  duration : Int
  start : Int
  deriving DecidableEq, Repr

/-- The element as JSON (`cli/schedule.cpp:153-158`). -/
def TaskEntry.toJson (e : TaskEntry) : Json :=
  .obj [("agent", .str e.agent), ("expected_duration", .int e.duration),
    ("expected_start", .int e.start), ("priority", .int e.priority), ("task", .str e.task)]

variable {K : Type} [Field K] [LinearOrder K] [IsStrictOrderedRing K]

namespace Timetable

/-- `task_duration(task, agent)` (`cli/schedule.cpp:25-33`) -/
def taskTime (E : FloatEnv K) (t : Task) (a : Agent) : Outcome K := do
  let d ← t.averageDuration
  expects (decide (0 < d)) "task_duration: average > 0"
  let perf ← a.averagePerformance E
  expects (decide (0 < perf)) "task_duration: performance > 0"
  return E.div (E.ofInt d) perf

/-- `dependencies_done(task_done, deps)` (`cli/schedule.cpp:43-55`) -/
def dependenciesDone (taskDone : List K) (deps : List Nat) : Outcome K := do
  expects (!taskDone.isEmpty) "dependencies_done: task_done not empty"
  if deps.isEmpty then return 0
  else do
    let done ← deps.mapM fun d => at? taskDone d "dependencies_done: task_done"
    return maxOf done

/-- `TaskDurations` (`cli/schedule.cpp:75-131`): end times by agent and by task. -/
structure Durations (K : Type) where
  agentWorkEnd : List K
  taskDone : List K

/-- Constructor (`cli/schedule.cpp:82-89`) -/
def Durations.new (p : Project) : Outcome (Durations K) := do
  expects (!p.tasks.isEmpty) "TaskDurations: tasks not empty"
  expects (!p.agents.isEmpty) "TaskDurations: agents not empty"
  return ⟨List.replicate p.agents.length 0, List.replicate p.tasks.length 0⟩

variable [FloorRing K]

/-- `static_cast<int>` of a `float`: truncates; undefined if the result does not fit 32 bits. -/
def toInt (x : K) : Outcome Int := do
  expects (decide (-2 ^ 31 ≤ Simulation.truncate x ∧ Simulation.truncate x < 2 ^ 31))
    "float to int conversion"
  return Simulation.truncate x

/-- `TaskDurations::operator()` (`cli/schedule.cpp:101-125`): duration and start of the item, and the
end times afterwards. -/
def Durations.call (E : FloatEnv K) (p : Project) (d : Durations K) (agent task : Nat) :
    Outcome (Int × Int × Durations K) := do
  let done ← at? d.taskDone task "TaskDurations: task_done"
  expects (decide (done = 0)) "TaskDurations: task not done yet"
  let a ← at? p.agents agent "TaskDurations: agent_id"
  let t ← at? p.tasks task "TaskDurations: task_id"
  let duration ← taskTime E t a
  let workEnd ← at? d.agentWorkEnd agent "TaskDurations: agent_work_end"
  let depsDone ← dependenciesDone d.taskDone t.dependencies
  let start := max workEnd depsDone
  let done := E.add start duration
  expects (decide (0 < done)) "TaskDurations: task_done > 0"
  let duration ← toInt duration
  let start ← toInt start
  return (duration, start, ⟨d.agentWorkEnd.set agent done, d.taskDone.set task done⟩)

/-- The loop of `to_json` (`cli/schedule.cpp:147-159`) -/
def entries (E : FloatEnv K) (p : Project) :
    List Item → Durations K → List Nat → Outcome (List TaskEntry)
  | [], _, _ => ok []
  | ⟨task, agent⟩ :: rest, d, priority => do
    let (duration, start, d) ← d.call E p agent task
    let t ← at? p.tasks task "to_json: task"
    let a ← at? p.agents agent "to_json: agent"
    let prio ← at? priority agent "to_json: priority"
    let es ← entries E p rest d (priority.set agent (prio + 1))
    return { task := t.name, agent := a.name, priority := prio, duration := duration,
             start := start } :: es

/-- `to_json(config, schedule)` (`cli/schedule.cpp:136-167`) -/
def toJson (E : FloatEnv K) (p : Project) (schedule : List Item) (makespan : Int) :
    Outcome Json := do
  expects (!p.tasks.isEmpty) "to_json: tasks not empty"
  expects (!p.agents.isEmpty) "to_json: agents not empty"
  let d ← Durations.new p
  let es ← entries E p schedule d (List.replicate p.agents.length 0)
  expects (!es.isEmpty) "to_json: entries not empty"
  expects (decide (0 < makespan)) "to_json: makespan > 0"
  return .obj [("makespan", .int makespan), ("tasks", .arr (es.map TaskEntry.toJson))]

end Timetable

/-- `gsl::narrow<int>(count)` (`histogram.h:38`) -/
def narrowToInt (i : Int) : Outcome Int :=
  if -2 ^ 31 ≤ i ∧ i < 2 ^ 31 then ok i else throws .narrowing

/-- `static_cast<int>` of a safe integer: checked. -/
def safeToInt (i : Int) : Outcome Int :=
  if -2 ^ 31 ≤ i ∧ i < 2 ^ 31 then ok i else throws .range

/-- The loop of `to_json(histogram)` (`cli/cli.cpp:76-80`) -/
def binsJson : List Bin → Outcome (List Json)
  | [] => ok []
  | b :: rest => do
    let c ← narrowToInt b.count
    if c = 0 then binsJson rest
    else do
      let low ← safeToInt b.low
      let es ← binsJson rest
      return .arr [.int low, .int c] :: es

/-- `to_json(histogram)` (`cli/cli.cpp:71-84`). If there were no bins but empty ones the code would write `null`
for the empty array; bins are never empty. -/
def Histogram.toJson (h : Histogram) : Outcome Json := do
  expects (decide (1 ≤ h.size)) "to_json: histogram not empty"
  let bins ← h.toList
  let es ← binsJson bins
  let w ← safeToInt h.binSize
  return .obj [("bin_size", .int w), ("bins", .arr es)]

/-- `to_json(stats)` (`cli/cli.cpp:61-69`) -/
def HistogramStats.toJson (s : HistogramStats) : Json :=
  .obj [("p25", .int s.p25), ("p50", .int s.p50), ("p75", .int s.p75), ("p95", .int s.p95),
    ("p99", .int s.p99)]

end Angonoka
