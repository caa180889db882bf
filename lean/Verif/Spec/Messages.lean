import Verif.Spec.Loading

/-!
# What validation messages say

The meaning of the messages as a user reads them, for a document: `TrueMessage rf root text` means that `text` is a
message whose claim about the document is true.
-/

namespace Angonoka.Doc

/-- A task or subtask of the document -/
def IsTaskOf (root : Yaml) (task : Yaml) : Prop := ∃ path, (path, task) ∈ tasks root

/-- A task of the document with this name -/
def TaskNamed (root : Yaml) (name : String) (task : Yaml) : Prop :=
  IsTaskOf root task ∧ Field task "name" (.scalar name)

/-- An agent of the document with this name; `body` is what is written about it. -/
def AgentNamed (root : Yaml) (name : String) (body : Yaml) : Prop := (.scalar name, body) ∈ agents root

/-- The place in the document that a message means by `scope`: nothing for the whole document, `agents.Bob` for the value of
`Bob` in the map at `agents`, `tasks[2]` for the third item of the list at `tasks`. A key that is not a text is written as nothing. -/
inductive At (root : Yaml) : String → Yaml → Prop
  | whole : At root "" root
  | field {es : List (Yaml × Yaml)} {k v : Yaml} (h : At root "" (.map es)) (hk : (k, v) ∈ es) : At root k.text v
  | subfield {scope : String} {es : List (Yaml × Yaml)} {k v : Yaml} (hs : scope ≠ "") (h : At root scope (.map es))
      (hk : (k, v) ∈ es) :
      At root (scope ++ "." ++ k.text) v
  | item {scope : String} {l : List Yaml} {i : Nat} {v : Yaml} (h : At root scope (.seq l)) (hi : l[i]? = some v) :
      At root (scope ++ "[" ++ toString i ++ "]") v

/-- The claims of the messages. The first group is about the shape of the document, the second about its contents. -/
inductive TrueMessage (rf : String → Option XFloat) (root : Yaml) : String → Prop
  | empty {scope} (h : At root scope .null) : TrueMessage rf root ("\"" ++ scope ++ "\" can't be empty.")
  /-- the value is neither a text nor missing; said where a text is possible -/
  | invalidType {scope v} (h : At root scope v) (hv : v ≠ .null) (ht : ¬ IsText v) :
      TrueMessage rf root ("\"" ++ scope ++ "\" has invalid type.")
  | missing {scope v key} (h : At root scope v) (hv : ∀ w, ¬ Field v key w)
      (hk : (scope, key) = ("", "agents") ∨ (scope, key) = ("", "tasks") ∨
        IsTaskOf root v ∧ (key = "name" ∨ key = "duration")) :
      TrueMessage rf root ("\"" ++ scope ++ "\" is missing a \"" ++ key ++ "\" attribute.")
  | notSequence {scope v} (h : At root scope v) (hv : ∀ l, v ≠ .seq l) :
      TrueMessage rf root ("\"" ++ scope ++ "\" is expected to be a sequence.")
  | notMap {scope v} (h : At root scope v) (hv : ∀ es, v ≠ .map es) :
      TrueMessage rf root ("\"" ++ scope ++ "\" is expected to be a map.")
  | emptyAttribute {scope es k v} (h : At root scope (.map es)) (hk : (k, v) ∈ es) (ht : ∀ s, k = .scalar s → s = "") :
      TrueMessage rf root ("Empty attribute in \"" ++ scope ++ "\".")
  | duplicateAttribute {scope es key} {i j : Nat} {v w} (h : At root scope (.map es)) (hij : i < j)
      (hi : es[i]? = some (.scalar key, v)) (hj : es[j]? = some (.scalar key, w)) :
      TrueMessage rf root ("Duplicate attribute \"" ++ key ++ "\" in \"" ++ scope ++ "\".")
  | unexpectedInDocument {key v} (h : Field root key v) (hk : key ∉ ["agents", "tasks"]) :
      TrueMessage rf root ("Unexpected attribute \"" ++ key ++ "\" in \"\".")
  | unexpectedInAgent {k body key v} (h : (k, body) ∈ agents root) (hv : Field body key v)
      (hk : key ∉ ["performance", "groups"]) :
      TrueMessage rf root ("Unexpected attribute \"" ++ key ++ "\" in \"agents." ++ k.text ++ "\".")
  | unexpectedInTask {scope task key v} (h : IsTaskOf root task) (hs : At root scope task)
      (hv : Field task key v)
      (hk : key ∉ ["group", "groups", "agent", "name", "id", "depends_on", "duration", "subtasks"]) :
      TrueMessage rf root ("Unexpected attribute \"" ++ key ++ "\" in \"" ++ scope ++ "\".")
  | noAgents (h : agents root = []) : TrueMessage rf root "\"agents\" can't be empty."
  | noTasks (h : tasks root = []) : TrueMessage rf root "\"tasks\" can't be empty."
  | noName {task} (h : TaskNamed root "" task) : TrueMessage rf root "Task name can't be empty."
  | noAgentName {task} (h : IsTaskOf root task) (ha : Field task "agent" (.scalar "")) :
      TrueMessage rf root "Assigned agents name can't be empty."
  | noId {name task} (h : TaskNamed root name task) (hi : Field task "id" (.scalar "")) :
      TrueMessage rf root ("Task id for the task \"" ++ name ++ "\" can't be empty.")
  | noDependency {name task} (h : TaskNamed root name task) (hd : DependsOnId task "") :
      TrueMessage rf root ("Dependency id of the task \"" ++ name ++ "\" can't be empty.")
  | invalidDuration {name task text} (h : TaskNamed root name task) (hd : InDuration task text)
      (hw : ¬ DurationText.WellFormed text) :
      TrueMessage rf root ("Task \"" ++ name ++ "\" has invalid duration \"" ++ text ++ "\".")
  | durationMinMax {name task lo hi} (h : TaskNamed root name task) (hd : Duration task lo hi) (hl : hi < lo) :
      TrueMessage rf root ("Task \"" ++ name ++ "\" has min duration that is greater than max duration.")
  | assignment {name task} (h : TaskNamed root name task) {key key' v w}
      (hk : (key, key') ∈ [("agent", "group"), ("agent", "groups"), ("group", "groups")])
      (hv : Field task key v) (hw : Field task key' w) :
      TrueMessage rf root ("Task \"" ++ name ++ "\" must have at most one of: agent, group, groups.")
  | invalidPerformance {name body text} (h : AgentNamed root name body) (hp : InPerformance body text)
      (hw : rf text = none) : TrueMessage rf root ("Agent \"" ++ name ++ "\" has invalid performance.")
  | negativePerformance {name body text x} (h : AgentNamed root name body) (hp : InPerformance body text)
      (hw : rf text = some x) (hx : (XFloat.fin 0).gt x = true) :
      TrueMessage rf root ("Agent \"" ++ name ++ "\" can't have a negative performance value.")
  | performanceMinMax {name body v a b x y} (h : AgentNamed root name body) (hv : Field body "performance" v)
      (hmin : Field v "min" (.scalar a)) (hmax : Field v "max" (.scalar b)) (ha : rf a = some x)
      (hb : rf b = some y) (hxy : x.gt y = true) : TrueMessage rf root
        ("The minimum performance of the agent \"" ++ name ++ "\" is greater than maximum.")
  | duplicateAgent {name} {i j : Nat} {v w} (hij : i < j) (hi : (agents root)[i]? = some (Yaml.scalar name, v))
      (hj : (agents root)[j]? = some (Yaml.scalar name, w)) :
      TrueMessage rf root ("Agent \"" ++ name ++ "\" is specified more than once.")
  | duplicateTask {id} {i j : Nat} {q r : List Nat × Yaml} (hij : i < j) (hi : (tasks root)[i]? = some q) (hj : (tasks root)[j]? = some r)
      (hq : Field q.2 "id" (.scalar id)) (hr : Field r.2 "id" (.scalar id)) :
      TrueMessage rf root ("Duplicate task id \"" ++ id ++ "\".")
  | agentNotFound {task who} (h : IsTaskOf root task) (ha : Field task "agent" (.scalar who))
      (hno : ∀ body, ¬ AgentNamed root who body) : TrueMessage rf root ("Agent \"" ++ who ++ "\" doesn't exist.")
  | taskNotFound {task id} (h : IsTaskOf root task) (hd : DependsOnId task id)
      (hno : ∀ q ∈ tasks root, ¬ Field q.2 "id" (.scalar id)) :
      TrueMessage rf root ("Task with id \"" ++ id ++ "\" doesn't exist.")
  | cycle {i} (h : Relation.TransGen (DependsOn root) i i) : TrueMessage rf root "Dependency cycle detected."
  | noSuitableAgent {name task g} (h : TaskNamed root name task) (hg : TaskGroup task g)
      (hno : ∀ e ∈ agents root, ¬ AgentGroup e g ∧ ∃ g', AgentGroup e g') :
      TrueMessage rf root ("No suitable agent for task \"" ++ name ++ "\".")

end Angonoka.Doc
