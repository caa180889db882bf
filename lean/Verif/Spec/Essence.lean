import Verif.Spec.Documented

/-!
# What matters in a document

Two documents with the same agents, tasks, and dependencies, in which the same agents may do the same tasks. From the model only the data types are used.
-/

namespace Angonoka.Doc
open Angonoka

/-- The documents agree about the agents' names and performances, the tasks' names and durations, which task directly depends on which, and who may do what. How they
say so does not matter: by subtasks or by ids, by groups or by naming an agent. `rf` reads a number. -/
structure SameEssence (rf : String → Option XFloat) (root root' : Yaml) : Prop where
  agents : List.Forall₂ (fun w w' => w'.1 = w.1 ∧ ∃ lo hi, Performance rf w.2 lo hi ∧ Performance rf w'.2 lo hi) (agents root) (agents root')
  tasks : List.Forall₂ (fun q q' => (∃ s, Field q.2 "name" (.scalar s) ∧ Field q'.2 "name" (.scalar s)) ∧
    ∃ lo hi, Duration q.2 lo hi ∧ Duration q'.2 lo hi) (tasks root) (tasks root')
  depends : ∀ i d, DependsOn root' i d ↔ DependsOn root i d
  may : ∀ (i k : Nat) w w' q q', (Doc.agents root)[i]? = some w → (Doc.agents root')[i]? = some w' → (Doc.tasks root)[k]? = some q →
    (Doc.tasks root')[k]? = some q' → (MayDo w' q'.2 ↔ MayDo w q.2)

end Angonoka.Doc
