import Verif.Spec.Loading

/-!
# Other notation

Two documents that say the same in another notation: short and long forms, attributes in another order, defaults
written out or left out.
-/

namespace Angonoka.Doc
open Angonoka

/-- The attribute is not written. -/
def Missing (n : Yaml) (key : String) : Prop := ¬ ∃ v, Field n key v

/-- The groups of an agent in the order they are written: none unless written -/
inductive AgentGroups (n : Yaml) : List Yaml → Prop
  | written {l : List Yaml} : Field n "groups" (.seq l) → AgentGroups n l
  | left : Missing n "groups" → AgentGroups n []

/-- The groups a task requires, in the order they are written, and the agent it is assigned to. At most one of the three attributes is used. -/
inductive Assignment (n : Yaml) : List Yaml → Option Yaml → Prop
  | group {g : Yaml} : Field n "group" g → Missing n "groups" → Missing n "agent" → Assignment n [g] none
  | groups {l : List Yaml} : Missing n "group" → Field n "groups" (.seq l) → Missing n "agent" → Assignment n l none
  | agent {a : Yaml} : Missing n "group" → Missing n "groups" → Field n "agent" a → Assignment n [] (some a)
  | left : Missing n "group" → Missing n "groups" → Missing n "agent" → Assignment n [] none

/-- The ids a task depends on, in the order they are written: a single one or a list that is not empty; none unless written -/
inductive Dependencies (n : Yaml) : List Yaml → Prop
  | one {s : String} : Field n "depends_on" (.scalar s) → Dependencies n [.scalar s]
  | list {l : List Yaml} : Field n "depends_on" (.seq l) → l ≠ [] → Dependencies n l
  | left : Missing n "depends_on" → Dependencies n []

/-- The subtasks of a task: none unless written -/
inductive Subtasks (n : Yaml) : List Yaml → Prop
  | written {l : List Yaml} : Field n "subtasks" (.seq l) → Subtasks n l
  | left : Missing n "subtasks" → Subtasks n []

/-- The two entries describe the same agent. `rf` reads a number. -/
structure SameAgent (rf : String → Option XFloat) (e f : Yaml × Yaml) : Prop where
  name : f.1 = e.1
  groups : ∃ l, AgentGroups e.2 l ∧ AgentGroups f.2 l
  performance : ∃ lo hi, Performance rf e.2 lo hi ∧ Performance rf f.2 lo hi

/-- The two nodes describe the same task. -/
inductive SameTask : Yaml → Yaml → Prop
  | mk {n n' : Yaml} {l l' : List Yaml}
    (name : ∀ v, Field n' "name" v ↔ Field n "name" v)
    (id : ∀ v, Field n' "id" v ↔ Field n "id" v)
    (duration : ∃ lo hi, Duration n lo hi ∧ Duration n' lo hi)
    (assignment : ∃ gs a, Assignment n gs a ∧ Assignment n' gs a)
    (dependencies : ∃ ds, Dependencies n ds ∧ Dependencies n' ds)
    (subtasks : Subtasks n l) (subtasks' : Subtasks n' l') (length : l'.length = l.length)
    (same : ∀ (i : Nat) (m m' : Yaml), l[i]? = some m → l'[i]? = some m' → SameTask m m') : SameTask n n'

/-- The two documents describe the same project, with agents and tasks in the same order. -/
structure SameProject (rf : String → Option XFloat) (root root' : Yaml) : Prop where
  agents : List.Forall₂ (SameAgent rf) (agents root) (agents root')
  tasks : ∃ l l', Field root "tasks" (.seq l) ∧ Field root' "tasks" (.seq l') ∧ List.Forall₂ SameTask l l'

end Angonoka.Doc
