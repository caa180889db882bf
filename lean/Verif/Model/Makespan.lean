import Verif.Model.Schedule

/-!
# Makespan estimator

Model of `Makespan` (`/repo/src/stun/utils.cpp:13-138`).
-/

namespace Angonoka.Stun
open Angonoka Outcome

variable {K : Type} [Field K] [LinearOrder K] [IsStrictOrderedRing K]

/-- `Makespan`: the parameters it points to and the two scratch arrays that live in one
buffer (`sum_buffer`: first `task_done`, then `work_done`). The arrays persist between calls. -/
structure Makespan (K : Type) where
  params : ScheduleParams K
  taskDone : List K
  workDone : List K
  deriving DecidableEq, Repr

/-- Constructor (`utils.cpp:66-84`): vectors are value-initialised. -/
def Makespan.new (p : ScheduleParams K) : Outcome (Makespan K) := do
  expects (!p.agentPerformance.isEmpty) "Makespan: agents not empty"
  expects (!p.taskDuration.isEmpty) "Makespan: tasks not empty"
  return { params := p, taskDone := List.replicate p.taskDuration.length 0,
           workDone := List.replicate p.agentPerformance.length 0 }

/-- Copy constructor (`utils.cpp:93-97`): fresh buffers for the same parameters. -/
def Makespan.copy (m : Makespan K) : Outcome (Makespan K) := do
  let c ← Makespan.new m.params
  expects (c.taskDone.length + c.workDone.length == m.taskDone.length + m.workDone.length)
    "Makespan: copy has the same size"
  return c

/-- `Makespan::params(params)` (`utils.cpp:86-89`): the buffers keep their sizes. -/
def Makespan.setParams (m : Makespan K) (p : ScheduleParams K) : Makespan K :=
  { m with params := p }

/-- `ranges::max` of a non-empty range. -/
def maxOf : List K → K
  | [] => 0
  | x :: xs => xs.foldl max x

/-- Element of an array; out of range is undefined behaviour. -/
def at? (l : List α) (i : Nat) (site : String) : Outcome α :=
  match l[i]? with
  | some x => ok x
  | none => ub site

/-- `Impl::dependencies_done` (`utils.cpp:22-36`) -/
def dependenciesDone (m : Makespan K) (taskDone : List K) (task : Nat) : Outcome K := do
  expects (decide (task < m.params.taskDuration.length)) "dependencies_done: task_id"
  let deps := m.params.dependencies.row task
  if deps.isEmpty then return 0
  else do
    let done ← deps.mapM fun d => at? taskDone d "dependencies_done: task_done index"
    return maxOf done

/-- `Impl::task_duration` (`utils.cpp:49-63`) -/
def workTime (E : FloatEnv K) (m : Makespan K) (task agent : Nat) : Outcome K := do
  let d ← at? m.params.taskDuration task "task_duration: task_id"
  let perf ← at? m.params.agentPerformance agent "task_duration: agent_id"
  return E.div d perf

/-- The loop of `Makespan::operator()` (`utils.cpp:130-136`) -/
def makespanLoop (E : FloatEnv K) (m : Makespan K) :
    List Item → List K → List K → Outcome (List K × List K)
  | [], taskDone, workDone => ok (taskDone, workDone)
  | ⟨task, agent⟩ :: rest, taskDone, workDone => do
    let depsDone ← dependenciesDone m taskDone task
    let agentDone ← at? workDone agent "Makespan: work_done index"
    let time ← workTime E m task agent
    let done := E.add (max depsDone agentDone) time
    let _ ← at? taskDone task "Makespan: task_done index"
    makespanLoop E m rest (taskDone.set task done) (workDone.set agent done)

/-- `Makespan::operator()` (`utils.cpp:122-138`): the makespan and the estimator
afterwards. -/
def Makespan.call (E : FloatEnv K) (m : Makespan K) (s : List Item) :
    Outcome (K × Makespan K) := do
  expects (!s.isEmpty) "Makespan: schedule not empty"
  expects (s.length == m.taskDone.length) "Makespan: schedule size"
  expects (!(m.taskDone ++ m.workDone).isEmpty) "Makespan: buffer not empty"
  let (taskDone, workDone) ← makespanLoop E m s
    (m.taskDone.map fun _ => 0) (m.workDone.map fun _ => 0)
  return (maxOf workDone, { m with taskDone := taskDone, workDone := workDone })

end Angonoka.Stun
