import Verif.Spec.Project

/-!
# More pessimistic estimates

Two descriptions of the same plan, the second of which expects less of everything. From the model only the data types are used.
-/

namespace Angonoka

/-- The same agent, who is expected to work at most as fast. One is certain (both bounds are equal) if and only if the other is. -/
structure Agent.Gloomier (a a' : Agent) : Prop where
  id : a'.id = a.id
  groups : a'.groupIds = a.groupIds
  performance : ∀ lo hi lo' hi' : ℚ, a.PerformanceOk lo hi → a'.PerformanceOk lo' hi' → lo' ≤ lo ∧ hi' ≤ hi ∧ (lo = hi ↔ lo' = hi')

/-- The same task, which is expected to take at least as long. One is certain if and only if the other is. -/
structure Task.Gloomier (t t' : Task) : Prop where
  agent : t'.agentId = t.agentId
  groups : t'.groupIds = t.groupIds
  dependencies : t'.dependencies = t.dependencies
  shortest : t.durMin ≤ t'.durMin
  longest : t.durMax ≤ t'.durMax
  certain : t.durMin = t.durMax ↔ t'.durMin = t'.durMax

/-- The same project, with more pessimistic estimates -/
structure Project.Gloomier (p p' : Project) : Prop where
  agents : List.Forall₂ Agent.Gloomier p.agents p'.agents
  tasks : List.Forall₂ Task.Gloomier p.tasks p'.tasks

end Angonoka
