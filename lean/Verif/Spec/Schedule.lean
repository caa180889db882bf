import Mathlib.Data.List.Perm.Basic
import Mathlib.Logic.Relation
import Verif.Model.Schedule

/-!
# What a schedule and its execution are

Definitions used in theorem statements. They mention only the data of the API
(schedule items, parameters), none of the algorithms.
-/

namespace Angonoka

variable {K : Type} [Field K] [LinearOrder K] [IsStrictOrderedRing K]

/-- Number of tasks. -/
def ScheduleParams.taskCount (p : ScheduleParams K) : Nat := p.taskDuration.length
/-- Number of agents. -/
def ScheduleParams.agentCount (p : ScheduleParams K) : Nat := p.agentPerformance.length
/-- Tasks that must end before task `t` starts. -/
def ScheduleParams.deps (p : ScheduleParams K) (t : Nat) : List Nat := p.dependencies.row t
/-- Agents that may do task `t`. -/
def ScheduleParams.avail (p : ScheduleParams K) (t : Nat) : List Nat := p.availableAgents.row t

/-- A valid schedule: every task exactly once, every task after all its dependencies, every task
given to an agent that may do it. -/
structure ValidSchedule (p : ScheduleParams K) (s : List Item) : Prop where
  complete : (s.map Item.task).Perm (List.range p.taskCount)
  ordered : ∀ pre it post, s = pre ++ it :: post → ∀ d ∈ p.deps it.task, d ∈ pre.map Item.task
  eligible : ∀ it ∈ s, it.agent ∈ p.avail it.task

/-- Task `t` directly needs task `d`. -/
def ScheduleParams.Needs (p : ScheduleParams K) (t d : Nat) : Prop :=
  t < p.taskCount ∧ d ∈ p.deps t

/-- Parameters that describe a schedulable project. -/
structure WellFormed (p : ScheduleParams K) : Prop where
  tasks_pos : 0 < p.taskCount
  deps_size : p.dependencies.size = p.taskCount
  avail_size : p.availableAgents.size = p.taskCount
  deps_lt : ∀ t < p.taskCount, ∀ d ∈ p.deps t, d < p.taskCount
  deps_sorted : ∀ t < p.taskCount, (p.deps t).Pairwise (· < ·)
  acyclic : ∀ t, ¬ Relation.TransGen p.Needs t t
  avail_ne : ∀ t < p.taskCount, p.avail t ≠ []
  avail_lt : ∀ t < p.taskCount, ∀ a ∈ p.avail t, a < p.agentCount
  perf_pos : ∀ x ∈ p.agentPerformance, 0 < x
  dur_nonneg : ∀ x ∈ p.taskDuration, 0 ≤ x

/-- The time an item takes: the duration of its task divided by the performance of its agent. -/
def ScheduleParams.itemTime (E : FloatEnv K) (p : ScheduleParams K) (it : Item) : K :=
  E.div (p.taskDuration.getD it.task 0) (p.agentPerformance.getD it.agent 0)

/-- `start` and `finish` (by task) are the times of an execution of the schedule: no task starts before
time 0 or before its dependencies have ended, each task takes its time, and an agent starts a task
only after ending the tasks it has earlier in the schedule. -/
structure Execution (E : FloatEnv K) (p : ScheduleParams K) (s : List Item)
    (start finish : Nat → K) : Prop where
  nonneg : ∀ it ∈ s, 0 ≤ start it.task
  time : ∀ it ∈ s, finish it.task = E.add (start it.task) (p.itemTime E it)
  deps : ∀ it ∈ s, ∀ d ∈ p.deps it.task, finish d ≤ start it.task
  agents : s.Pairwise fun a b => a.agent = b.agent → finish a.task ≤ start b.task

/-- The times of an execution in which every task starts and ends as early as it does in any. -/
def Earliest (E : FloatEnv K) (p : ScheduleParams K) (s : List Item) (start finish : Nat → K) : Prop :=
  Execution E p s start finish ∧ ∀ start' finish', Execution E p s start' finish' →
    ∀ it ∈ s, start it.task ≤ start' it.task ∧ finish it.task ≤ finish' it.task

/-- `v` is the time the last task of the schedule ends. -/
def IsEnd (s : List Item) (finish : Nat → K) (v : K) : Prop :=
  (∀ it ∈ s, finish it.task ≤ v) ∧ ∃ it ∈ s, finish it.task = v

end Angonoka
