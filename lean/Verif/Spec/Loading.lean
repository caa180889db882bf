import Mathlib.Logic.Relation
import Verif.Model.Project
import Verif.Spec.Document
import Verif.Spec.Duration
import Verif.Spec.Project

/-!
# What a configuration says

The tasks and agents written in a document, what a faithfully loaded project is, and the cause of
each error. Independent of the loader: only data types, the YAML accessor `get`, comparison of
floats, and the duration grammar are used.
-/

namespace Angonoka.Doc
open Angonoka

mutual
/-- The task at a path, followed by its subtasks, theirs, and so on. -/
def tasksAt (path : List Nat) (n : Yaml) : List (List Nat × Yaml) :=
  match _h : n.get "subtasks" with
  | some (.seq l) => (path, n) :: listAt path 0 l
  | _ => [(path, n)]
termination_by sizeOf n
decreasing_by
  have := Yaml.sizeOf_get _h
  simp only [Yaml.seq.sizeOf_spec] at this
  omega
/-- A list of tasks under a path, the first of which has number `k`, with all their subtasks. -/
def listAt (path : List Nat) (k : Nat) (l : List Yaml) : List (List Nat × Yaml) :=
  match l with
  | [] => []
  | n :: rest => tasksAt (path ++ [k]) n ++ listAt path (k + 1) rest
termination_by sizeOf l
end

/-- All tasks of a document in the order they are written, each with its path: `[2, 0]` is the first
subtask of the third task. -/
def tasks (root : Yaml) : List (List Nat × Yaml) :=
  match root.get "tasks" with
  | some (.seq l) => listAt [] 0 l
  | _ => []

/-- All agents of a document: name and properties. -/
def agents (root : Yaml) : List (Yaml × Yaml) :=
  match root.get "agents" with
  | some (.map es) => es
  | _ => []

/-- The task at `b` is a direct subtask of the one at `a`. -/
def SubtaskPath (a b : List Nat) : Prop := ∃ k, b = a ++ [k]

/-- The agent has the group `g`. -/
def AgentGroup (e : Yaml × Yaml) (g : String) : Prop :=
  ∃ l, Field e.2 "groups" (.seq l) ∧ Yaml.scalar g ∈ l

/-- The task requires the group `g`. -/
def TaskGroup (n : Yaml) (g : String) : Prop :=
  Field n "group" (.scalar g) ∨ ∃ l, Field n "groups" (.seq l) ∧ Yaml.scalar g ∈ l

/-- The task lists the id `s` in `depends_on`. -/
def DependsOnId (n : Yaml) (s : String) : Prop :=
  Field n "depends_on" (.scalar s) ∨ ∃ l, Field n "depends_on" (.seq l) ∧ Yaml.scalar s ∈ l

/-- Some agent or task of the document has the group `g`. -/
def Mentioned (root : Yaml) (g : String) : Prop :=
  (∃ e ∈ agents root, AgentGroup e g) ∨ ∃ q ∈ tasks root, TaskGroup q.2 g

/-- Some agent has the group `g`, or some agent has no groups and so can do everything. -/
def Suitable (root : Yaml) (g : String) : Prop :=
  ∃ e ∈ agents root, AgentGroup e g ∨ ∀ g', ¬ AgentGroup e g'

/-- The task's duration is between `lo` and `hi` seconds. -/
def Duration (n : Yaml) (lo hi : Nat) : Prop :=
  (∃ s, Field n "duration" (.scalar s) ∧ DurationText.Means s lo ∧ hi = lo) ∨
    ∃ v a b, Field n "duration" v ∧ Field v "min" (.scalar a) ∧ Field v "max" (.scalar b) ∧
      DurationText.Means a lo ∧ DurationText.Means b hi

/-- `s` is one of the texts in the task's duration. -/
def InDuration (n : Yaml) (s : String) : Prop :=
  Field n "duration" (.scalar s) ∨
    ∃ v, Field n "duration" v ∧ (Field v "min" (.scalar s) ∨ Field v "max" (.scalar s))

/-- The agent's performance is between `lo` and `hi`: 1 unless written. `rf` reads a number. -/
def Performance (rf : String → Option XFloat) (n : Yaml) (lo hi : XFloat) : Prop :=
  (¬ (∃ v, Field n "performance" v) ∧ lo = .fin 1 ∧ hi = .fin 1) ∨
    (∃ s, Field n "performance" (.scalar s) ∧ rf s = some lo ∧ hi = lo) ∨
    ∃ v a b, Field n "performance" v ∧ Field v "min" (.scalar a) ∧ Field v "max" (.scalar b) ∧
      rf a = some lo ∧ rf b = some hi

/-- `s` is one of the texts in the agent's performance. -/
def InPerformance (n : Yaml) (s : String) : Prop :=
  Field n "performance" (.scalar s) ∨
    ∃ v, Field n "performance" v ∧ (Field v "min" (.scalar s) ∨ Field v "max" (.scalar s))

/-- `ids` is the set of indices in `table` of the names satisfying `S`. -/
structure Names (table : List String) (ids : IndexSet) (S : String → Prop) : Prop where
  sorted : IndexSet.Sorted ids
  sound : ∀ i ∈ ids, ∃ g, table[i]? = some g ∧ S g
  complete : ∀ g, S g → ∃ i ∈ ids, table[i]? = some g

/-- An agent as written in entry `e`. -/
structure AgentLoaded (rf : String → Option XFloat) (groups : List String) (e : Yaml × Yaml)
    (a : Agent) : Prop where
  name : e.1 = .scalar a.name
  named : a.name ≠ ""
  groups : Names groups a.groupIds (AgentGroup e)
  performance : Performance rf e.2 a.perfMin a.perfMax
  /-- not zero or below, and the bounds not in the wrong order -/
  positive : a.perfMin.le (.fin 0) = false ∧ a.perfMax.le (.fin 0) = false
  ordered : a.perfMin.gt a.perfMax = false

/-- A task as written in node `n`, apart from its dependencies. -/
structure TaskLoaded (ags : List Agent) (groups : List String) (n : Yaml) (t : Task) : Prop where
  name : Field n "name" (.scalar t.name)
  named : t.name ≠ ""
  id : (t.id ≠ "" ∧ Field n "id" (.scalar t.id)) ∨ (t.id = "" ∧ ¬ ∃ v, Field n "id" v)
  duration : ∃ lo hi : Nat, Duration n lo hi ∧ lo ≤ hi ∧ t.durMin = lo ∧ t.durMax = hi
  groups : Names groups t.groupIds (TaskGroup n)
  /-- the assigned agent is the one with the written name -/
  agent : ∀ i, t.agentId = some i → ∃ s a, Field n "agent" (.scalar s) ∧ ags[i]? = some a ∧ a.name = s
  no_agent : t.agentId = none → ¬ ∃ v, Field n "agent" v
  /-- at most one way of assignment is used -/
  one_way : (∃ v, Field n "agent" v) → (¬ ∃ v, Field n "group" v) ∧ ¬ ∃ v, Field n "groups" v
  one_group : (∃ v, Field n "group" v) → ¬ ∃ v, Field n "groups" v
  /-- a list of dependencies is not empty -/
  listed : ¬ Field n "depends_on" (.seq [])

/-- Task `i` of the document directly depends on task `d`: `d` is a subtask of it, or it lists the id
of `d`. -/
def DependsOn (root : Yaml) (i d : Nat) : Prop :=
  ∃ qi qd, (tasks root)[i]? = some qi ∧ (tasks root)[d]? = some qd ∧
    (SubtaskPath qi.1 qd.1 ∨ ∃ s, DependsOnId qi.2 s ∧ Field qd.2 "id" (.scalar s))

/-- The project is what the document says. -/
structure Loaded (rf : String → Option XFloat) (root : Yaml) (p : Project) : Prop where
  agents_length : p.agents.length = (agents root).length
  agents_ne : p.agents ≠ []
  agent_ids : ∀ (i : Nat) (a : Agent), p.agents[i]? = some a → a.id = i
  agents_loaded : ∀ (i : Nat) (e : Yaml × Yaml) (a : Agent), (agents root)[i]? = some e →
    p.agents[i]? = some a → AgentLoaded rf p.groups e a
  agent_names : (p.agents.map Agent.name).Nodup
  groups_nodup : p.groups.Nodup
  groups_named : "" ∉ p.groups
  groups_mentioned : ∀ g, g ∈ p.groups ↔ Mentioned root g
  tasks_length : p.tasks.length = (tasks root).length
  tasks_ne : p.tasks ≠ []
  tasks_loaded : ∀ (i : Nat) (q : List Nat × Yaml) (t : Task), (tasks root)[i]? = some q →
    p.tasks[i]? = some t → TaskLoaded p.agents p.groups q.2 t
  task_ids : ∀ (i j : Nat) (t u : Task), p.tasks[i]? = some t → p.tasks[j]? = some u →
    t.id = u.id → t.id ≠ "" → i = j
  deps_sorted : ∀ t ∈ p.tasks, IndexSet.Sorted t.dependencies
  deps : ∀ (i : Nat) (t : Task), p.tasks[i]? = some t →
    ∀ d, d ∈ t.dependencies ↔ DependsOn root i d
  deps_known : ∀ q ∈ tasks root, ∀ s, DependsOnId q.2 s →
    ∃ q' ∈ tasks root, Field q'.2 "id" (.scalar s)
  acyclic : ∀ i, ¬ Relation.TransGen (DependsOn root) i i
  suitable : ∀ q ∈ tasks root, ∀ g, TaskGroup q.2 g → Suitable root g
  tasks_limit : p.tasks.length ≤ 127
  agents_limit : p.agents.length ≤ 128
  groups_limit : p.groups.length ≤ 128

/-- The document really has the defect that an error reports. -/
def Cause (rf : String → Option XFloat) (root : Yaml) : Err → Prop
  | .schema _ => ¬ IsConfiguration root
  | .cantBeEmpty what =>
    what = "\"agents\"" ∧ agents root = [] ∨ what = "\"tasks\"" ∧ tasks root = [] ∨
      ∃ q ∈ tasks root,
        what = "Task name" ∧ Field q.2 "name" (.scalar "") ∨
        what = "Assigned agents name" ∧ Field q.2 "agent" (.scalar "") ∨
        ∃ name, Field q.2 "name" (.scalar name) ∧
          (what = "Task id for the task \"" ++ name ++ "\"" ∧ Field q.2 "id" (.scalar "") ∨
            what = "Dependency id of the task \"" ++ name ++ "\"" ∧ DependsOnId q.2 "")
  | .duplicateAgentDefinition who =>
    ∃ (i j : Nat) (e f : Yaml × Yaml), i < j ∧ (agents root)[i]? = some e ∧
      (agents root)[j]? = some f ∧ e.1 = .scalar who ∧ f.1 = .scalar who
  | .invalidAgentPerformance who =>
    ∃ e ∈ agents root, e.1 = .scalar who ∧ ∃ s, InPerformance e.2 s ∧ rf s = none
  | .negativePerformance who =>
    ∃ e ∈ agents root, e.1 = .scalar who ∧
      ∃ s x, InPerformance e.2 s ∧ rf s = some x ∧ x.le (.fin 0) = true
  | .agentPerformanceMinMax who =>
    ∃ e ∈ agents root, e.1 = .scalar who ∧ ∃ v a b x y, Field e.2 "performance" v ∧
      Field v "min" (.scalar a) ∧ Field v "max" (.scalar b) ∧ rf a = some x ∧ rf b = some y ∧
      x.gt y = true
  | .duplicateTaskDefinition id =>
    ∃ (i j : Nat) (q r : List Nat × Yaml), i < j ∧ (tasks root)[i]? = some q ∧
      (tasks root)[j]? = some r ∧ Field q.2 "id" (.scalar id) ∧ Field r.2 "id" (.scalar id)
  | .invalidDuration task text =>
    ∃ q ∈ tasks root, Field q.2 "name" (.scalar task) ∧ InDuration q.2 text ∧
      ¬ DurationText.WellFormed text
  | .taskDurationMinMax task =>
    ∃ q ∈ tasks root, Field q.2 "name" (.scalar task) ∧
      ∃ lo hi, Duration q.2 lo hi ∧ hi < lo
  | .invalidTaskAssignment task =>
    ∃ q ∈ tasks root, Field q.2 "name" (.scalar task) ∧
      ((∃ v w, Field q.2 "group" v ∧ Field q.2 "groups" w) ∨
        (∃ v w, Field q.2 "group" v ∧ Field q.2 "agent" w) ∨
        ∃ v w, Field q.2 "groups" v ∧ Field q.2 "agent" w)
  | .noSuitableAgent g =>
    (∃ q ∈ tasks root, TaskGroup q.2 g) ∧
      ∀ e ∈ agents root, ¬ AgentGroup e g ∧ ∃ g', AgentGroup e g'
  | .agentNotFound name =>
    (∃ q ∈ tasks root, Field q.2 "agent" (.scalar name)) ∧ ∀ e ∈ agents root, e.1 ≠ .scalar name
  | .taskNotFound id =>
    (∃ q ∈ tasks root, DependsOnId q.2 id) ∧ ∀ q ∈ tasks root, ¬ Field q.2 "id" (.scalar id)
  | .dependencyCycle => ∃ i, Relation.TransGen (DependsOn root) i i
  | .range =>
    128 < (agents root).length ∨ 127 < (tasks root).length ∨
      ∃ gs : List String, gs.Nodup ∧ 128 < gs.length ∧ ∀ g ∈ gs, Mentioned root g
  | .duration _ => False
  | .yaml => False
  | .narrowing => False
  | .system => False
  | .encoding => False

/-- Texts that the schema lets pass but the loader does not expect: an agent without a name, an empty
group name, an empty list of dependencies, a number in a duration that is too large, a duration that is too long. -/
def Degenerate (root : Yaml) : Prop :=
  (∃ e ∈ agents root, e.1.text = "") ∨ Mentioned root "" ∨
    (∃ q ∈ tasks root, Field q.2 "depends_on" (.seq [])) ∨
    ∃ q ∈ tasks root, ∃ s, InDuration q.2 s ∧ (DurationText.HugeNumber s ∨ DurationText.Overlong s)

end Angonoka.Doc
