import Verif.Model.Agents
import Verif.Model.Duration
import Verif.Model.Cycles

/-!
# Loading of tasks

Model of `/repo/src/config/tasks.cpp`. Functions that fill a `Task&` in place are
modelled as functions from the old task to the new one.
-/

namespace Angonoka.Load
open Angonoka Outcome

/-- `parse_duration(std::string_view)` with the `catch` clause of the caller
(`tasks.cpp:39-41`). -/
def readDuration (task : String) (n : Option Yaml) : Outcome Int :=
  match parseDuration ((n.map Yaml.text).getD "") with
  | ok v => ok (Int.ofNat v)
  | throws (.duration text) => throws (.invalidDuration task text)
  | throws e => throws e
  | ub s => ub s

/-- The two forms of a duration (`tasks.cpp:30-38`) -/
def readDurations (node : Yaml) (t : Task) : Outcome Task :=
  if node.isScalar then do
    let v ← readDuration t.name (some node)
    return { t with durMin := v, durMax := v }
  else do
    let lo ← readDuration t.name (node.get "min")
    let hi ← readDuration t.name (node.get "max")
    return { t with durMin := lo, durMax := hi }

/-- `parse_duration(node, task)` (`tasks.cpp:26-43`) -/
def parseTaskDuration (node : Yaml) (t : Task) : Outcome Task := do
  let t ← readDurations node t
  if t.durMax < t.durMin then throws (.taskDurationMinMax t.name)
  else ok t

/-- The check for a group nobody has (`tasks.cpp:66-67`): only done for new groups; with the contract
of `has_universal_agents`. -/
def checkSuitable (agents : List Agent) (name : String) (inserted : Bool) : Outcome Unit :=
  if inserted then do
    expects (!agents.isEmpty) "has_universal_agents: agents not empty"
    if !agents.any isUniversal then throws (.noSuitableAgent name) else ok ()
  else ok ()

/-- `parse_task_group` (`tasks.cpp:56-70`). Returns the task and the group table. -/
def parseTaskGroup (agents : List Agent) (node : Yaml) (t : Task) (groups : List String) :
    Outcome (Task × List String) := do
  let name := node.text
  expects (!name.isEmpty) "parse_task_group: group not empty"
  let (groups, gid, inserted) ← findOrInsertGroup groups name
  checkSuitable agents name inserted
  return ({ t with groupIds := IndexSet.insert gid t.groupIds }, groups)

/-- `parse_task_groups` (`tasks.cpp:85-92`) -/
def parseTaskGroups (agents : List Agent) :
    List Yaml → Task → List String → Outcome (Task × List String)
  | [], t, groups => ok (t, groups)
  | g :: rest, t, groups => do
    let (t, groups) ← parseTaskGroup agents g t groups
    parseTaskGroups agents rest t groups

/-- `check_for_duplicates` (`tasks.cpp:100-106`) -/
def checkTaskDuplicates (tasks : List Task) (id : String) : Outcome Unit := do
  expects (!id.isEmpty) "check_for_duplicates: id not empty"
  if tasks.any (fun t => t.id == id) then throws (.duplicateTaskDefinition id) else ok ()

/-- `find_task_index_by_id` (`tasks.cpp:116-124`) -/
def findTaskIndexById (tasks : List Task) (id : String) : Outcome Nat := do
  expects (!id.isEmpty) "find_task_index_by_id: id not empty"
  match findIdx id (tasks.map Task.id) with
  | some i => toInt8 i
  | none => throws (.taskNotFound id)

/-- `find_agent_index_by_name` (`tasks.cpp:134-144`) -/
def findAgentIndexByName (agents : List Agent) (name : String) : Outcome Nat := do
  expects (!agents.isEmpty) "find_agent_index_by_name: agents not empty"
  expects (!name.isEmpty) "find_agent_index_by_name: name not empty"
  match agents.find? (fun a => a.name == name) with
  | some a => ok a.id
  | none => throws (.agentNotFound name)

/-- `parse_task_id` (`tasks.cpp:157-171`). `tasks` are the tasks before the new one; the new
one itself is also searched by the code but its id is still empty. -/
def parseTaskId (node : Yaml) (tasks : List Task) (t : Task) : Outcome Task := do
  let id := node.text
  if id.isEmpty then throws (.cantBeEmpty s!"Task id for the task \"{t.name}\"")
  else do
    checkTaskDuplicates (tasks ++ [t]) id
    return { t with id := id }

/-- `validate_task_id` (`tasks.cpp:181-189`) -/
def validateTaskId (id : String) (t : Task) : Outcome String :=
  if id.isEmpty then throws (.cantBeEmpty s!"Dependency id of the task \"{t.name}\"")
  else ok id

/-- Loop of `parse_dependencies` (`tasks.cpp:215-218`) -/
def parseDependenciesLoop (t : Task) : List Yaml → Outcome (List String)
  | [] => ok []
  | d :: rest => do
    let id ← validateTaskId d.text t
    let ids ← parseDependenciesLoop t rest
    return id :: ids

/-- The two forms of `depends_on` (`tasks.cpp:214-221`) -/
def dependencyIds (node : Yaml) (t : Task) : Outcome (List String) :=
  if node.isSequence then parseDependenciesLoop t node.items
  else do
    let id ← validateTaskId node.text t
    return [id]

/-- `parse_dependencies` (`tasks.cpp:207-225`): first phase, collects ids. -/
def parseDependencies (node : Yaml) (t : Task) : Outcome (List String) := do
  expects (node.isSequence || node.isScalar) "parse_dependencies: sequence or scalar"
  let ids ← dependencyIds node t
  expects (!ids.isEmpty) "parse_dependencies: dependencies not empty"
  return ids

/-- `parse_task_agent` (`tasks.cpp:275-288`) -/
def parseTaskAgent (node : Yaml) (t : Task) (agents : List Agent) : Outcome Task := do
  expects (!agents.isEmpty) "parse_task_agent: agents not empty"
  expects node.isScalar "parse_task_agent: scalar"
  let name := node.text
  if name.isEmpty then throws (.cantBeEmpty "Assigned agents name")
  else do
    let i ← findAgentIndexByName agents name
    return { t with agentId := some i }

/-- `count_defined` (`tasks.cpp:297-301`) -/
def countDefined (l : List (Option Yaml)) : Nat := (l.filter Option.isSome).length

/-- `parse_groups_and_agents` (`tasks.cpp:319-350`) -/
def parseGroupsAndAgents (node : Yaml) (agents : List Agent) (t : Task) (groups : List String) :
    Outcome (Task × List String) := do
  expects (!t.name.isEmpty) "parse_groups_and_agents: name not empty"
  if countDefined [node.get "group", node.get "groups", node.get "agent"] > 1 then
    throws (.invalidTaskAssignment t.name)
  else
    match node.get "group" with
    | some g => parseTaskGroup agents g t groups
    | none =>
      match node.get "groups" with
      | some g => parseTaskGroups agents g.items t groups
      | none =>
        match node.get "agent" with
        | some a => do
          let t ← parseTaskAgent a t agents
          return (t, groups)
        | none => return (t, groups)

/-- State threaded through `parse_task`: the project under construction
(groups and tasks; the agents do not change) and `deps`, the textual dependencies of
each task so far. -/
structure TasksState where
  groups : List String
  tasks : List Task
  deps : List (List String)
  deriving DecidableEq, Repr

/-- The optional `id` of a task (`tasks.cpp:382`) -/
def parseIdField (node : Yaml) (tasks : List Task) (t : Task) : Outcome Task :=
  match node.get "id" with
  | some n => parseTaskId n tasks t
  | none => return t

/-- The optional `depends_on` of a task (`tasks.cpp:390-391`) -/
def parseDependsOnField (node : Yaml) (t : Task) : Outcome (List String) :=
  match node.get "depends_on" with
  | some n => parseDependencies n t
  | none => return []

/-- The part of `parse_task` before the subtasks (`tasks.cpp:372-392`): appends one task
and its textual dependencies. The code appends first and then fills the entry in place. -/
def parseTaskHead (node : Yaml) (agents : List Agent) (st : TasksState) : Outcome TasksState := do
  expects (!node.isNull) "parse_task: node not null"
  expects (st.tasks.length == st.deps.length) "parse_task: sizes"
  let name := ((node.get "name").map Yaml.text).getD ""
  if name.isEmpty then throws (.cantBeEmpty "Task name")
  else do
    let t : Task := { name := name }
    let t ← parseIdField node st.tasks t
    let t ← parseTaskDuration ((node.get "duration").getD .null) t
    let (t, groups) ← parseGroupsAndAgents node agents t st.groups
    let ids ← parseDependsOnField node t
    return { groups := groups, tasks := st.tasks ++ [t], deps := st.deps ++ [ids] }

/-- `tasks[i].dependencies.emplace(d)` -/
def addDependency (tasks : List Task) (i d : Nat) : List Task :=
  tasks.modify i fun t => { t with dependencies := IndexSet.insert d t.dependencies }

mutual
/-- `parse_task` (`tasks.cpp:367-401`) -/
def parseTask (node : Yaml) (agents : List Agent) (st : TasksState) : Outcome TasksState := do
  let st ← parseTaskHead node agents st
  match h : node.get "subtasks" with
  | some subs => do
    -- `parse_subtasks` takes the index as `int8` (`tasks.cpp:246-253`)
    let index ← toInt8 (st.tasks.length - 1)
    parseSubtasks subs.items agents index st
  | none => return st
termination_by sizeOf node
decreasing_by
  have h1 := Yaml.sizeOf_get h
  have h2 := Yaml.sizeOf_items subs
  omega
/-- Loop of `parse_subtasks` (`tasks.cpp:255-260`) -/
def parseSubtasks (subs : List Yaml) (agents : List Agent) (index : Nat) (st : TasksState) :
    Outcome TasksState :=
  match subs with
  | [] => ok st
  | sub :: rest => do
    let next ← toInt8 st.tasks.length
    let st ← parseTask sub agents { st with tasks := addDependency st.tasks index next }
    parseSubtasks rest agents index st
termination_by sizeOf subs
end

/-- Loop over the top-level tasks (`tasks.cpp:491`) -/
def parseTaskList (agents : List Agent) : List Yaml → TasksState → Outcome TasksState
  | [], st => ok st
  | n :: rest, st => do
    let st ← parseTask n agents st
    parseTaskList agents rest st

/-- Inner loop of the second phase (`tasks.cpp:422-425`): resolve the ids of the task at
index `i`. -/
def resolveIds (i : Nat) : List String → List Task → Outcome (List Task)
  | [], tasks => ok tasks
  | id :: rest, tasks => do
    let d ← findTaskIndexById tasks id
    resolveIds i rest (addDependency tasks i d)

/-- Outer loop of the second phase (`tasks.cpp:421-426`) -/
def resolveAll : Nat → List (List String) → List Task → Outcome (List Task)
  | _, [], tasks => ok tasks
  | i, ids :: rest, tasks => do
    let tasks ← resolveIds i ids tasks
    resolveAll (i + 1) rest tasks

/-- `parse_dependencies_2nd_phase` (`tasks.cpp:413-427`) -/
def parseDependencies2ndPhase (tasks : List Task) (deps : List (List String)) :
    Outcome (List Task) := do
  expects (!tasks.isEmpty) "parse_dependencies_2nd_phase: tasks not empty"
  expects (tasks.length == deps.length) "parse_dependencies_2nd_phase: sizes"
  resolveAll 0 deps tasks

/-- `parse_tasks` (`tasks.cpp:485-496`) -/
def parseTasks (node : Yaml) (p : Project) : Outcome Project := do
  expects p.tasks.isEmpty "parse_tasks: no tasks yet"
  if node.size = 0 then throws (.cantBeEmpty "\"tasks\"")
  else do
    let st ← parseTaskList p.agents node.items { groups := p.groups, tasks := [], deps := [] }
    let tasks ← parseDependencies2ndPhase st.tasks st.deps
    checkForCycles tasks
    expects (!tasks.isEmpty) "parse_tasks: tasks not empty"
    return { p with groups := st.groups, tasks := tasks }

end Angonoka.Load
