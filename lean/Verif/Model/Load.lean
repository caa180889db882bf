import Verif.Model.Validation
import Verif.Model.Tasks

/-!
# Loading a project

Model of `parse_yaml` (`/repo/src/config/load.cpp:84-96`), the common part of
`load_text` and `load_file`.
-/

namespace Angonoka
open Outcome

/-- `parse_yaml` (`load.cpp:84-96`): `load_text`/`load_file` after the YAML parser.
`rf` is the conversion of text to `float`. -/
def load (rf : Load.ReadFloat) (root : Yaml) : Outcome Project := do
  match Validation.validateConfiguration root with
  | .error e => throws (.schema e)
  | .ok () => do
    let p ← Load.parseAgents rf ((root.get "agents").getD .null) {}
    let p ← Load.parseTasks ((root.get "tasks").getD .null) p
    expects (!p.tasks.isEmpty) "parse_yaml: tasks not empty"
    expects (!p.agents.isEmpty) "parse_yaml: agents not empty"
    return p

end Angonoka
