import Mathlib.Algebra.Order.Floor.Defs
import Mathlib.Data.Rat.Floor
import Verif.Model.Makespan

/-!
# Simulation

Model of `Simulation` (`/repo/src/simulation.{h,cpp}`) and of the normal distribution in
`/repo/src/stun/random_utils.cpp`.

The random engine is the list of standard normal values it is going to produce. Sampling
redraws until it gets a positive value, so it may use up any list: the result `none` means that the list
ended before sampling did.

Simplified: `std::chrono::seconds` is unbounded, so the conversion of the result (`simulation.cpp:302`) never
overflows.
-/

namespace Angonoka
open Outcome Stun

/-- `ranges::span<float>`: a part of the buffer. -/
structure Span where
  offset : Nat
  count : Nat
  deriving DecidableEq, Repr

section
variable {K : Type}

/-- `span[i]`, reading -/
def Span.get (s : Span) (buffer : List K) (i : Nat) (site : String) : Outcome K := do
  expects (decide (i < s.count)) site
  at? buffer (s.offset + i) site

/-- `span[i] = x` -/
def Span.put (s : Span) (buffer : List K) (i : Nat) (x : K) (site : String) : Outcome (List K) := do
  expects (decide (i < s.count)) site
  let _ ← at? buffer (s.offset + i) site
  return buffer.set (s.offset + i) x

/-- The elements of the span. -/
def Span.elems (s : Span) (buffer : List K) : List K := (buffer.drop s.offset).take s.count

end

/-- `Simulation` (`simulation.h:21-80`): a project, one buffer and four views of it. -/
structure Simulation (K : Type) where
  config : Project
  buffer : List K
  agentPerformance : Span
  taskDuration : Span
  agentWorkEnd : Span
  taskDone : Span
  deriving DecidableEq

variable {K : Type} [Field K] [LinearOrder K] [IsStrictOrderedRing K]

namespace Simulation

/-- `std::vector<float>::resize` -/
def resize (l : List K) (n : Nat) : List K := l.take n ++ List.replicate (n - l.length) 0

/-- `Impl::assign_buffers` (`simulation.cpp:91-122`): `next_span` hands out consecutive parts of the buffer. -/
def assignBuffers (config : Project) (buffer : List K) : Outcome (Simulation K) := do
  expects (!config.agents.isEmpty) "assign_buffers: agents not empty"
  expects (!config.tasks.isEmpty) "assign_buffers: tasks not empty"
  let agentCount := config.agents.length
  let taskCount := config.tasks.length
  return {
    config := config
    buffer := resize buffer (agentCount * 2 + taskCount * 2)
    agentPerformance := ⟨0, agentCount⟩
    taskDuration := ⟨agentCount, taskCount⟩
    agentWorkEnd := ⟨agentCount + taskCount, agentCount⟩
    taskDone := ⟨agentCount + taskCount + agentCount, taskCount⟩ }

/-- Constructor (`simulation.cpp:233-250`) -/
def new (config : Project) : Outcome (Simulation K) := do
  expects (!config.agents.isEmpty) "Simulation: agents not empty"
  expects (!config.tasks.isEmpty) "Simulation: tasks not empty"
  assignBuffers config []

/-- Setter `params` (`simulation.cpp:257-274`): its preconditions are about the old project. -/
def setParams (sim : Simulation K) (config : Project) : Outcome (Simulation K) := do
  expects (!sim.config.agents.isEmpty) "Simulation::params: agents not empty"
  expects (!sim.config.tasks.isEmpty) "Simulation::params: tasks not empty"
  assignBuffers config sim.buffer

/-- Copy constructor and copy assignment (`simulation.cpp:305-316, 320-334`) -/
def copy (sim : Simulation K) : Outcome (Simulation K) := do
  expects (!sim.buffer.isEmpty) "Simulation: buffer not empty"
  let c ← assignBuffers sim.config sim.buffer
  expects (c.buffer.length == sim.buffer.length) "Simulation: copy has the same size"
  return c

/-- `RandomUtils::normal` (`random_utils.cpp:25-34`) without its contracts, for the standard normal value
`z`; `boost::random::normal_distribution` returns `z * sigma + mean`. -/
def normalValue (E : FloatEnv K) (lo hi z : K) : K :=
  E.add (E.mul z (E.div (E.sub hi lo) 4)) (E.div (E.add lo hi) 2)

/-- Draw until positive (`simulation.cpp:144-145, 173-175`). -/
def redraw (E : FloatEnv K) (lo hi : K) : List K → Option (K × List K)
  | [] => none
  | z :: zs =>
    if normalValue E lo hi z ≤ 0 then redraw E lo hi zs else some (normalValue E lo hi z, zs)

/-- One sampled value: the body of the loops of `random_agent_performances` (`simulation.cpp:137-146`)
and `random_task_durations` (`simulation.cpp:164-176`) up to the assignment, with the contract of
`RandomUtils::normal`. -/
def sample (E : FloatEnv K) (lo hi : K) (zs : List K) : Outcome (Option (K × List K)) := do
  if lo = hi then return some (lo, zs)
  else do
    expects (decide (lo < hi)) "normal: max > min"
    expects (decide (0 ≤ lo)) "normal: min >= 0"
    return redraw E lo hi zs

/-- The loop of both functions: sample for each pair of bounds and store in the span from index `i`
on. -/
def sampleLoop (E : FloatEnv K) (dest : Span) :
    List (K × K) → Nat → List K → List K → Outcome (Option (List K × List K))
  | [], _, buffer, zs => ok (some (buffer, zs))
  | (lo, hi) :: rest, i, buffer, zs => do
    let r ← sample E lo hi zs
    match r with
    | none => ok none
    | some (x, zs) => do
      let buffer ← dest.put buffer i x "sample: index"
      sampleLoop E dest rest (i + 1) buffer zs

/-- Bounds of an agent's performance. Infinite and NaN performances are not modelled further. -/
def performanceBounds (a : Agent) : Outcome (K × K) := do
  let lo ← a.perfMin.toK
  let hi ← a.perfMax.toK
  return (lo, hi)

/-- `Impl::random_agent_performances` (`simulation.cpp:129-149`) -/
def randomAgentPerformances (E : FloatEnv K) (sim : Simulation K) (zs : List K) :
    Outcome (Option (List K × List K)) := do
  expects (!sim.config.agents.isEmpty) "random_agent_performances: agents not empty"
  expects (sim.config.agents.length == sim.agentPerformance.count)
    "random_agent_performances: span size"
  let bounds ← sim.config.agents.mapM performanceBounds
  sampleLoop E sim.agentPerformance bounds 0 sim.buffer zs

/-- `Impl::random_task_durations` (`simulation.cpp:156-179`) -/
def randomTaskDurations (E : FloatEnv K) (sim : Simulation K) (zs : List K) :
    Outcome (Option (List K × List K)) := do
  expects (!sim.config.tasks.isEmpty) "random_task_durations: tasks not empty"
  expects (sim.config.tasks.length == sim.taskDuration.count) "random_task_durations: span size"
  sampleLoop E sim.taskDuration
    (sim.config.tasks.map fun t => (E.ofInt t.durMin, E.ofInt t.durMax)) 0 sim.buffer zs

/-- `Impl::task_duration` (`simulation.cpp:192-209`) -/
def workTime (E : FloatEnv K) (sim : Simulation K) (buffer : List K) (task agent : Nat) :
    Outcome K := do
  expects (decide (agent < sim.config.agents.length)) "task_duration: agent_id"
  expects (decide (task < sim.config.tasks.length)) "task_duration: task_id"
  let performance ← sim.agentPerformance.get buffer agent "task_duration: agent_performance"
  let duration ← sim.taskDuration.get buffer task "task_duration: task_duration"
  expects (decide (0 < performance)) "task_duration: performance > 0"
  expects (decide (0 < duration)) "task_duration: task_duration > 0"
  return E.div duration performance

/-- `Impl::dependencies_done` (`simulation.cpp:219-230`) -/
def dependenciesDone (sim : Simulation K) (buffer : List K) (deps : List Nat) : Outcome K := do
  expects (decide (0 < sim.taskDone.count)) "dependencies_done: task_done not empty"
  if deps.isEmpty then return 0
  else do
    let done ← deps.mapM fun d => sim.taskDone.get buffer d "dependencies_done: task_done"
    return maxOf done

/-- The loop of `operator()` (`simulation.cpp:290-299`) -/
def loop (E : FloatEnv K) (sim : Simulation K) : List Item → List K → Outcome (List K)
  | [], buffer => ok buffer
  | ⟨task, agent⟩ :: rest, buffer => do
    let t ← at? sim.config.tasks task "Simulation: tasks"
    let depsDone ← sim.dependenciesDone buffer t.dependencies
    let agentDone ← sim.agentWorkEnd.get buffer agent "Simulation: agent_work_end"
    let time ← sim.workTime E buffer task agent
    let done := E.add (max depsDone agentDone) time
    let buffer ← sim.taskDone.put buffer task done "Simulation: task_done"
    let buffer ← sim.agentWorkEnd.put buffer agent done "Simulation: agent_work_end"
    sim.loop E rest buffer

variable [FloorRing K]

/-- `static_cast<std::int64_t>` of a `float`: truncates toward zero. -/
def truncate (x : K) : Int := if 0 ≤ x then ⌊x⌋ else ⌈x⌉

/-- `Simulation::operator()` (`simulation.cpp:276-303`): the makespan, the remaining random numbers and the
simulation afterwards. -/
def call (E : FloatEnv K) (sim : Simulation K) (schedule : List Item) (zs : List K) :
    Outcome (Option (Int × List K × Simulation K)) := do
  expects (!sim.buffer.isEmpty) "Simulation: buffer not empty"
  expects (decide (0 < sim.agentPerformance.count)) "Simulation: agent_performance not empty"
  expects (decide (0 < sim.taskDuration.count)) "Simulation: task_duration not empty"
  expects (decide (0 < sim.agentWorkEnd.count)) "Simulation: agent_work_end not empty"
  expects (decide (0 < sim.taskDone.count)) "Simulation: task_done not empty"
  expects (schedule.length == sim.taskDone.count) "Simulation: schedule size"
  expects (sim.agentPerformance.offset == 0) "Simulation: agent_performance is first"
  let sim := { sim with buffer := sim.buffer.map fun _ => (0 : K) }
  let r ← sim.randomAgentPerformances E zs
  match r with
  | none => ok none
  | some (buffer, zs) => do
    let sim := { sim with buffer := buffer }
    let r ← sim.randomTaskDurations E zs
    match r with
    | none => ok none
    | some (buffer, zs) => do
      let buffer ← sim.loop E schedule buffer
      ok (some (truncate (maxOf (sim.agentWorkEnd.elems buffer)), zs, { sim with buffer := buffer }))

end Simulation
end Angonoka
