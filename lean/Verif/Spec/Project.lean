import Mathlib.Data.Rat.Cast.Order
import Verif.Spec.Schedule

/-!
# What a project means

Definitions used in theorem statements about projects and schedule parameters.
-/

namespace Angonoka

/-- Who may work on a task: the agent it names; if it names none, agents without groups, and agents
that have all the groups of a task with groups. -/
def Eligible (a : Agent) (t : Task) : Prop :=
  t.agentId = some a.id ∨
    t.agentId = none ∧ (a.groupIds = [] ∨ t.groupIds ≠ [] ∧ ∀ g ∈ t.groupIds, g ∈ a.groupIds)

/-- Index sets are strictly ascending arrays (the invariant of `flat_set`). -/
def IndexSet.Sorted (s : IndexSet) : Prop := s.Pairwise (· < ·)

/-- The task's duration in seconds that is used for scheduling: the mean of both bounds, rounded
down. -/
def Task.meanDuration (t : Task) : Int := (t.durMin + t.durMax) / 2

/-- Task `i` directly depends on task `d`. -/
def Project.DependsOn (p : Project) (i d : Nat) : Prop :=
  ∃ t, p.tasks[i]? = some t ∧ d ∈ t.dependencies

/-- Bounds of an agent's performance are finite positive numbers in the right order. -/
def Agent.PerformanceOk (a : Agent) (lo hi : ℚ) : Prop :=
  a.perfMin = .fin lo ∧ a.perfMax = .fin hi ∧ 0 < lo ∧ lo ≤ hi

/-- Bounds of a task's duration are positive and in the right order, and their sum fits 64 bits. -/
def Task.DurationOk (t : Task) : Prop := 0 < t.durMin ∧ t.durMin ≤ t.durMax ∧ t.durMin + t.durMax < 2 ^ 63

/-- A project as a scheduler needs it. -/
structure Project.Sound (p : Project) : Prop where
  agents_ne : p.agents ≠ []
  tasks_ne : p.tasks ≠ []
  ids : ∀ (i : Nat) (a : Agent), p.agents[i]? = some a → a.id = i
  agent_groups : ∀ a ∈ p.agents, IndexSet.Sorted a.groupIds
  task_groups : ∀ t ∈ p.tasks, IndexSet.Sorted t.groupIds
  performance : ∀ a ∈ p.agents, ∃ lo hi, a.PerformanceOk lo hi
  durations : ∀ t ∈ p.tasks, t.DurationOk
  deps_sorted : ∀ t ∈ p.tasks, IndexSet.Sorted t.dependencies
  deps_lt : ∀ t ∈ p.tasks, ∀ d ∈ t.dependencies, d < p.tasks.length
  acyclic : ∀ i, ¬ Relation.TransGen p.DependsOn i i
  assignable : ∀ t ∈ p.tasks, ∃ a ∈ p.agents, Eligible a t

/-- The performances in the configuration are representable `float`s. -/
def Project.FloatsIn {K : Type} [Field K] [LinearOrder K] [IsStrictOrderedRing K] (p : Project)
    (E : FloatEnv K) : Prop :=
  ∀ a ∈ p.agents, ∀ q : ℚ, a.perfMin = .fin q ∨ a.perfMax = .fin q → E.rnd (q : K) = (q : K)

end Angonoka
