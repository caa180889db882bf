import Mathlib.Logic.Function.Basic
import Verif.Model.Cli

/-!
# Other names

A document and the output with other names in them. From the model only the data types are used.
-/

namespace Angonoka.Doc
open Angonoka

/-- New names for agents, tasks, the ids of tasks, and groups -/
structure Naming where
  agent : String → String
  task : String → String
  id : String → String
  group : String → String

/-- Different names stay different, and only the empty name becomes the empty name. Names of tasks need not be different. -/
structure Naming.Proper (ν : Naming) : Prop where
  agent : ν.agent.Injective ∧ ν.agent "" = ""
  task : ∀ s, ν.task s = "" ↔ s = ""
  id : ν.id.Injective ∧ ν.id "" = ""
  group : ν.group.Injective ∧ ν.group "" = ""

namespace Naming

/-- A scalar -/
def scalar (f : String → String) : Yaml → Yaml
  | .scalar s => .scalar (f s)
  | n => n

/-- A scalar or a list of scalars -/
def scalars (f : String → String) : Yaml → Yaml
  | .seq l => .seq (l.map (scalar f))
  | n => scalar f n

variable (ν : Naming)

/-- The value of an attribute of a task other than `subtasks` -/
def inValue (key : String) (v : Yaml) : Yaml :=
  if key = "name" then scalars ν.task v
  else if key = "id" ∨ key = "depends_on" then scalars ν.id v
  else if key = "group" ∨ key = "groups" then scalars ν.group v
  else if key = "agent" then scalars ν.agent v
  else v

mutual
/-- A task -/
def inTask : Yaml → Yaml
  | .map es => .map (inAttributes es)
  | n => n
/-- The attributes of a task -/
def inAttributes : List (Yaml × Yaml) → List (Yaml × Yaml)
  | [] => []
  | (k, v) :: rest => (k, if k.text = "subtasks" then inTasks v else ν.inValue k.text v) :: inAttributes rest
/-- A list of tasks -/
def inTasks : Yaml → Yaml
  | .seq l => .seq (inTaskList l)
  | n => n
/-- The elements of a list of tasks -/
def inTaskList : List Yaml → List Yaml
  | [] => []
  | n :: rest => inTask n :: inTaskList rest
end

/-- What is said about an agent -/
def inAgent : Yaml → Yaml
  | .map es => .map (es.map fun e => (e.1, if e.1.text = "groups" then scalars ν.group e.2 else e.2))
  | n => n

/-- All agents -/
def inAgents : Yaml → Yaml
  | .map es => .map (es.map fun e => (scalar ν.agent e.1, ν.inAgent e.2))
  | n => n

/-- The document with the new names -/
def inDocument : Yaml → Yaml
  | .map es => .map (es.map fun e =>
      (e.1, if e.1.text = "agents" then ν.inAgents e.2 else if e.1.text = "tasks" then ν.inTasks e.2 else e.2))
  | n => n

/-- An attribute of an entry of the output file -/
def inField (e : String × Json) : String × Json :=
  match e with
  | ("agent", .str s) => ("agent", .str (ν.agent s))
  | ("task", .str s) => ("task", .str (ν.task s))
  | e => e

/-- An entry of the output file -/
def inEntry : Json → Json
  | .obj l => .obj (l.map ν.inField)
  | j => j

/-- The output file with the new names -/
def inOutput : Json → Json
  | .obj l => .obj (l.map fun e =>
      match e with
      | ("tasks", .arr es) => ("tasks", .arr (es.map ν.inEntry))
      | e => e)
  | j => j

end Naming
end Angonoka.Doc

namespace Angonoka.Doc.Naming
open Angonoka Cli

variable {K : Type} (ν : Naming)

/-- What the program does, with the new names in the output file -/
def inEffect : Effect K → Effect K
  | .file name j => .file name (ν.inOutput j)
  | e => e

/-- The files among what the program does -/
def files (es : List (Effect K)) : List (Effect K) :=
  es.filter fun e =>
    match e with
    | .file _ _ => true
    | .truncated _ => true
    | _ => false

end Angonoka.Doc.Naming
