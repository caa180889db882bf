import Verif.Base.Float
import Verif.Model.Project

/-!
# Schedule parameters and the initial schedule

Model of `/repo/src/stun/schedule.h` and `/repo/src/stun/schedule_params.{h,cpp}`.
The memory-level behaviour of `Vector2D` copies is modelled in
`Verif.Model.Vector2D`; here a span is an offset and a length into the data.
-/

namespace Angonoka

/-- `ScheduleItem` (`/repo/src/stun/schedule.h:32-43`) -/
structure Item where
  task : Nat
  agent : Nat
  deriving DecidableEq, Repr

/-- `Vector2D` (`schedule_params.h:18-87`): packed data and spans into it. -/
structure Vector2D where
  data : List Nat := []
  spans : List (Nat × Nat) := []
  deriving DecidableEq, Repr

namespace Vector2D

/-- Spans built from consecutive sizes (`schedule_params.cpp:182-187`); `head` is the offset of
the next span. -/
def spansOf (head : Nat) : List Nat → List (Nat × Nat)
  | [] => []
  | size :: rest => (head, size) :: spansOf (head + size) rest

/-- Constructor from data and sizes (`schedule_params.cpp:176-190`) -/
def ofSizes (data sizes : List Nat) : Vector2D where
  data := data
  spans := spansOf 0 sizes

/-- `operator[]` (`schedule_params.h:59-63`): the elements of the span with the given index.
Out of range there is nothing; the users check or prove their indices. -/
def row (v : Vector2D) (i : Nat) : List Nat :=
  match v.spans[i]? with
  | some (off, len) => (v.data.drop off).take len
  | none => []

/-- `size()` (`schedule_params.cpp:192-195`) -/
def size (v : Vector2D) : Nat := v.spans.length

end Vector2D

/-- `ScheduleParams` (`schedule_params.h:99-105`) -/
structure ScheduleParams (K : Type) where
  agentPerformance : List K
  taskDuration : List K
  availableAgents : Vector2D
  dependencies : Vector2D
  durationMultiplier : K
  deriving DecidableEq, Repr

variable {K : Type} [Field K] [LinearOrder K] [IsStrictOrderedRing K]

/-- A finite `float` of the configuration as an element of `K`. Infinite and NaN
performances are accepted by the loader but are outside this part of the model: they end in
`ub`. (For NaN `Performance::average` does violate its contract.) -/
def XFloat.toK (x : XFloat) : Outcome K :=
  match x with
  | .fin q => .ok ((q.num : K) / (q.den : K))
  | _ => .ub "non-finite performance"

/-- `Agent::Performance::average` (`/repo/src/project.cpp:38-44`) -/
def Agent.averagePerformance (E : FloatEnv K) (a : Agent) : Outcome K := do
  let lo ← a.perfMin.toK
  let hi ← a.perfMax.toK
  Outcome.expects (decide (0 < lo)) "Performance::average: min > 0"
  Outcome.expects (decide (lo ≤ hi)) "Performance::average: min <= max"
  return E.div (E.add lo hi) (2 : K)

namespace Stun
open Outcome

/-- `agent_performance` (`schedule_params.cpp:33-40`) -/
def agentPerformance (E : FloatEnv K) (agents : List Agent) : Outcome (List K) := do
  expects (!agents.isEmpty) "agent_performance: agents not empty"
  agents.mapM (Agent.averagePerformance E)

/-- First loop of `task_duration` (`schedule_params.cpp:61-65`): durations as floats and their
running total. -/
def durationLoop (E : FloatEnv K) : List Task → K → Outcome (List K × K)
  | [], total => ok ([], total)
  | t :: rest, total => do
    let avg ← t.averageDuration
    let d := E.ofInt avg
    let (ds, total) ← durationLoop E rest (E.add total d)
    return (d :: ds, total)

/-- `task_duration` (`schedule_params.cpp:53-77`) -/
def taskDuration (E : FloatEnv K) (tasks : List Task) (agentCount : Nat) :
    Outcome (List K × K) := do
  expects (!tasks.isEmpty) "task_duration: tasks not empty"
  expects (decide (0 < agentCount)) "task_duration: agent_count > 0"
  let (durations, total) ← durationLoop E tasks 0
  let averageDuration := E.div total (E.ofInt agentCount)
  return (durations.map fun d => E.div d averageDuration, averageDuration)

/-- Indices (from `i` on) of the agents that can work on a task: inner loop of `available_agents`
(`schedule_params.cpp:98-102`). -/
def eligible (t : Task) : Nat → List Agent → List Nat
  | _, [] => []
  | i, a :: rest => if canWorkOn a t then i :: eligible t (i + 1) rest else eligible t (i + 1) rest

/-- Outer loop of `available_agents` (`schedule_params.cpp:96-104`): data and sizes. -/
def availableAgentsLoop (agents : List Agent) :
    List Task → List Nat → List Nat → List Nat × List Nat
  | [], data, sizes => (data, sizes)
  | t :: rest, data, sizes =>
    let row := eligible t 0 agents
    availableAgentsLoop agents rest (data ++ row) (sizes ++ [row.length])

/-- `available_agents` (`schedule_params.cpp:86-110`) -/
def availableAgents (p : Project) : Outcome Vector2D := do
  expects (!p.tasks.isEmpty) "available_agents: tasks not empty"
  expects (!p.agents.isEmpty) "available_agents: agents not empty"
  let (data, sizes) := availableAgentsLoop p.agents p.tasks [] []
  return Vector2D.ofSizes data sizes

/-- Loop of `dependencies` (`schedule_params.cpp:128-131`) -/
def dependenciesLoop : List Task → List Nat → List Nat → List Nat × List Nat
  | [], data, sizes => (data, sizes)
  | t :: rest, data, sizes =>
    dependenciesLoop rest (data ++ t.dependencies) (sizes ++ [t.dependencies.length])

/-- `dependencies` (`schedule_params.cpp:119-137`) -/
def dependencies (tasks : List Task) : Outcome Vector2D := do
  expects (!tasks.isEmpty) "dependencies: tasks not empty"
  let (data, sizes) := dependenciesLoop tasks [] []
  return Vector2D.ofSizes data sizes

/-- `to_schedule_params` (`schedule_params.cpp:276-293`) -/
def toScheduleParams (E : FloatEnv K) (p : Project) : Outcome (ScheduleParams K) := do
  expects (!p.agents.isEmpty) "to_schedule_params: agents not empty"
  expects (!p.tasks.isEmpty) "to_schedule_params: tasks not empty"
  let (durations, multiplier) ← taskDuration E p.tasks p.agents.length
  let perf ← agentPerformance E p.agents
  let avail ← availableAgents p
  let deps ← dependencies p.tasks
  return { agentPerformance := perf, taskDuration := durations, availableAgents := avail,
           dependencies := deps, durationMultiplier := multiplier }

/-- Partially formed schedule and the set of unexplored tasks. -/
structure PushState where
  schedule : List Item
  tasks : IndexSet
  deriving DecidableEq, Repr

mutual
/-- `push_task` (`schedule_params.cpp:231-254`). The first argument bounds the recursion
depth; `initialSchedule` passes the number of tasks plus one, which is enough for acyclic
dependencies (for cyclic ones the C++ recursion never ends). Reading the first of no
available agents is `ub`. -/
def pushTask (p : ScheduleParams K) : Nat → PushState → Nat → Outcome PushState
  | 0, _, _ => ub "push_task: recursion bound"
  | fuel + 1, st, i => do
    expects (!st.tasks.isEmpty) "push_task: tasks not empty"
    expects (st.tasks.length + st.schedule.length == p.taskDuration.length) "push_task: sizes"
    if !st.tasks.contains i then return st
    else do
      let st ← pushTasks p fuel st (p.dependencies.row i)
      match (p.availableAgents.row i)[0]? with
      | none => ub "push_task: no available agent"
      | some agent => do
        let st := { schedule := st.schedule ++ [⟨i, agent⟩], tasks := st.tasks.erase i }
        expects (st.tasks.length + st.schedule.length == p.taskDuration.length)
          "push_task: sizes at the end"
        return st
/-- The loop over the dependencies (`schedule_params.cpp:244-245`) -/
def pushTasks (p : ScheduleParams K) : Nat → PushState → List Nat → Outcome PushState
  | _, st, [] => ok st
  | fuel, st, d :: rest => do
    let st ← pushTask p fuel st d
    pushTasks p fuel st rest
end

/-- The loop of `initial_schedule` (`schedule_params.cpp:268-269`). Every round schedules at
least one task, so as many rounds as there are tasks suffice; the first argument counts them. -/
def initialLoop (p : ScheduleParams K) : Nat → PushState → Outcome PushState
  | 0, st => if st.tasks.isEmpty then ok st else ub "initial_schedule: loop bound"
  | k + 1, st =>
    match st.tasks with
    | [] => ok st
    | i :: _ => do
      let st ← pushTask p (p.taskDuration.length + 1) st i
      initialLoop p k st

/-- `initial_schedule` (`schedule_params.cpp:256-274`) -/
def initialSchedule (p : ScheduleParams K) : Outcome (List Item) := do
  expects (!p.taskDuration.isEmpty) "initial_schedule: tasks not empty"
  let n := p.taskDuration.length
  let st ← initialLoop p n { schedule := [], tasks := List.range n }
  expects (st.schedule.length == n) "initial_schedule: size"
  return st.schedule

end Stun
end Angonoka
