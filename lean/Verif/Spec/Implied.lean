import Verif.Spec.Loading
import Verif.Spec.Schedule

/-!
# The same constraints, written differently

A dependency that follows from others need not be written. From the model only the data types are used.
-/

namespace Angonoka

/-- The parameters differ at most in which dependencies are listed: directly or indirectly, every task depends on the same tasks. -/
structure ScheduleParams.SameConstraints {K : Type} [Field K] [LinearOrder K] [IsStrictOrderedRing K] (p p' : ScheduleParams K) : Prop where
  performance : p'.agentPerformance = p.agentPerformance
  durations : p'.taskDuration = p.taskDuration
  avail : p'.availableAgents = p.availableAgents
  deps : ∀ t d, Relation.TransGen p'.Needs t d ↔ Relation.TransGen p.Needs t d

/-- The projects differ at most in which dependencies are listed: directly or indirectly, every task depends on the same tasks. -/
structure Project.SameConstraints (p p' : Project) : Prop where
  agents : p'.agents = p.agents
  tasks : List.Forall₂ (fun t t' => t' = { t with dependencies := t'.dependencies }) p.tasks p'.tasks
  deps : ∀ i d, Relation.TransGen p'.DependsOn i d ↔ Relation.TransGen p.DependsOn i d

/-- The documents differ at most in what `depends_on` and `subtasks` say, and directly or indirectly, every task depends on the same tasks, whether because it lists
them or because they are its subtasks. -/
structure Doc.SameConstraints (root root' : Yaml) : Prop where
  agents : Doc.agents root' = Doc.agents root
  tasks : List.Forall₂ (fun q q' => ∀ key v, key ≠ "depends_on" → key ≠ "subtasks" → (Doc.Field q.2 key v ↔ Doc.Field q'.2 key v))
    (Doc.tasks root) (Doc.tasks root')
  deps : ∀ i d, Relation.TransGen (Doc.DependsOn root') i d ↔ Relation.TransGen (Doc.DependsOn root) i d

end Angonoka
