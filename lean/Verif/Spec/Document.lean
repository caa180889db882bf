import Verif.Model.Yaml

/-!
# Documents

The shape of a configuration file as the documentation describes it, and the tasks and agents written in
it. Only the data type `Yaml` comes from the model.
-/

namespace Angonoka.Doc
open Angonoka

/-- The map `n` has an entry `key: v`. -/
def Field (n : Yaml) (key : String) (v : Yaml) : Prop :=
  ∃ es, n = .map es ∧ (Yaml.scalar key, v) ∈ es

/-- `n` is a map whose keys are texts, none twice, all of them among `allowed`, the `required`
ones present. Nothing at all counts as an empty map. -/
def HasKeys (allowed required : List String) (n : Yaml) : Prop :=
  (n = .null ∧ required = []) ∨
    ∃ (es : List (Yaml × Yaml)) (names : List String), n = .map es ∧
      es.map Prod.fst = names.map Yaml.scalar ∧ names.Nodup ∧
      (∀ x ∈ names, x ∈ allowed) ∧ ∀ x ∈ required, x ∈ names

/-- A text. -/
def IsText (n : Yaml) : Prop := ∃ s, n = .scalar s

/-- A list of texts. -/
def IsTexts (n : Yaml) : Prop := ∃ l, n = .seq l ∧ ∀ x ∈ l, IsText x

/-- A value or a pair `min`, `max`. -/
def IsRange (n : Yaml) : Prop :=
  IsText n ∨ HasKeys ["min", "max"] ["min", "max"] n ∧
    (∀ v, Field n "min" v → IsText v) ∧ (∀ v, Field n "max" v → IsText v)

/-- A task. -/
inductive IsTask : Yaml → Prop
  | mk {n : Yaml}
    (keys : HasKeys ["group", "groups", "agent", "name", "id", "depends_on", "duration", "subtasks"]
      ["name", "duration"] n)
    (group : ∀ v, Field n "group" v → IsText v)
    (groups : ∀ v, Field n "groups" v → IsTexts v)
    (agent : ∀ v, Field n "agent" v → IsText v)
    (name : ∀ v, Field n "name" v → IsText v)
    (id : ∀ v, Field n "id" v → IsText v)
    (dependsOn : ∀ v, Field n "depends_on" v → IsText v ∨ IsTexts v)
    (duration : ∀ v, Field n "duration" v → IsRange v)
    (subtasks : ∀ v, Field n "subtasks" v → ∃ l, v = .seq l)
    (subtask : ∀ l x, Field n "subtasks" (.seq l) → x ∈ l → IsTask x) : IsTask n

/-- What is written for an agent. -/
def IsAgent (n : Yaml) : Prop :=
  HasKeys ["performance", "groups"] [] n ∧
    (∀ v, Field n "performance" v → IsRange v) ∧ (∀ v, Field n "groups" v → IsTexts v)

/-- A whole configuration. -/
def IsConfiguration (root : Yaml) : Prop :=
  HasKeys ["agents", "tasks"] ["agents", "tasks"] root ∧
    (∀ v, Field root "agents" v → ∃ es, v = .map es ∧ ∀ e ∈ es, IsAgent e.2) ∧
    (∀ v, Field root "tasks" v → ∃ l, v = .seq l ∧ ∀ x ∈ l, IsTask x)

end Angonoka.Doc
