import Verif.Model.Yaml

/-!
# Schema validation

Model of `/repo/src/config/validation.h` and of the schema in
`/repo/src/config/load.cpp:29-82`. Error texts are those of the code.
-/

namespace Angonoka.Validation
open Angonoka

/-- A check function: node and scope (path for messages) to success or an error text. -/
abbrev Check := Yaml → String → Except String Unit

/-- `scalar()` (`validation.h:46-56`) -/
def scalar : Check := fun node scope =>
  match node with
  | .null => .error s!"\"{scope}\" can't be empty."
  | .scalar _ => .ok ()
  | _ => .error s!"\"{scope}\" has invalid type."

/-- `detail::join` (`validation.h:88-94`) -/
def join (a b : String) : String := if a.isEmpty then b else s!"{a}.{b}"

/-- An attribute: its name and what is checked on the node that should have it
(`required` or `optional`). -/
structure Attr where
  name : String
  run : Check

/-- `required(name, check)` (`validation.h:110-121`) -/
def required (name : String) (check : Check := scalar) : Attr where
  name := name
  run node scope :=
    match node.get name with
    | some n => check n (join scope name)
    | none => .error s!"\"{scope}\" is missing a \"{name}\" attribute."

/-- `optional(name, check)` (`validation.h:173-183`) -/
def optional (name : String) (check : Check := scalar) : Attr where
  name := name
  run node scope :=
    match node.get name with
    | some n => check n (join scope name)
    | none => .ok ()

/-- Loop of `sequence` over the items from index `i` on (`validation.h:212-215`). -/
def sequenceLoop (check : Check) (scope : String) : Nat → List Yaml → Except String Unit
  | _, [] => .ok ()
  | i, n :: rest =>
    match check n s!"{scope}[{i}]" with
    | .error e => .error e
    | .ok () => sequenceLoop check scope (i + 1) rest

/-- `sequence(check)` (`validation.h:204-218`) -/
def sequence (check : Check := scalar) : Check := fun node scope =>
  match node with
  | .seq items => sequenceLoop check scope 0 items
  | _ => .error s!"\"{scope}\" is expected to be a sequence."

/-- First loop of `attributes` (`validation.h:245-260`); `seen` is `unique_fields`. -/
def checkKeys (names : List String) (scope : String) :
    List String → List (Yaml × Yaml) → Except String Unit
  | _, [] => .ok ()
  | seen, (k, _) :: rest =>
    let attrName := k.text
    if attrName.isEmpty then .error s!"Empty attribute in \"{scope}\"."
    else if seen.contains attrName then
      .error s!"Duplicate attribute \"{attrName}\" in \"{scope}\"."
    else if !names.contains attrName then
      .error s!"Unexpected attribute \"{attrName}\" in \"{scope}\"."
    else checkKeys names scope (attrName :: seen) rest

/-- Second part of `attributes`: `((r = check(node, scope)) && ...)` (`validation.h:261-263`). -/
def runAttrs (node : Yaml) (scope : String) : List Attr → Except String Unit
  | [] => .ok ()
  | a :: rest =>
    match a.run node scope with
    | .error e => .error e
    | .ok () => runAttrs node scope rest

/-- `attributes(attrs...)` (`validation.h:239-265`). A null node counts as an empty map. -/
def attributes (attrs : List Attr) : Check := fun node scope =>
  if node.isScalar || node.isSequence then .error s!"\"{scope}\" is expected to be a map."
  else
    match checkKeys (attrs.map Attr.name) scope [] node.entries with
    | .error e => .error e
    | .ok () => runAttrs node scope attrs

/-- Loop of `values` (`validation.h:292-296`) -/
def valuesLoop (check : Check) (scope : String) : List (Yaml × Yaml) → Except String Unit
  | [] => .ok ()
  | (k, v) :: rest =>
    match check v (join scope k.text) with
    | .error e => .error e
    | .ok () => valuesLoop check scope rest

/-- `values(check)` (`validation.h:286-299`) -/
def values (check : Check) : Check := fun node scope =>
  match node with
  | .map es => valuesLoop check scope es
  | _ => .error s!"\"{scope}\" is expected to be a map."

/-- `any_of(a, b)` (`validation.h:323-331`); the schema only uses it with two
checks. The error is that of the last check. -/
def anyOf (a b : Check) : Check := fun node scope =>
  match a node scope with
  | .ok () => .ok ()
  | .error _ => b node scope

/-- The attributes of a task (`load.cpp:34-52`), given the check for `subtasks`. -/
def taskAttributes (subtasks : Check) : Check :=
  attributes [
    optional "group",
    optional "groups" sequence,
    optional "agent",
    required "name",
    optional "id",
    optional "depends_on" (anyOf scalar sequence),
    required "duration" (anyOf (attributes [required "min", required "max"]) scalar),
    optional "subtasks" subtasks]

/-- `validate_task_list` (`load.cpp:29-54`). The C++ function is recursive without a bound;
here the recursion depth is bounded by the first argument, and
`validateConfiguration` passes the depth of the document, which is always enough
(`Verif.Proof.Schema`). -/
def validateTaskList : Nat → Check
  | 0 => fun _ _ => .error "recursion bound"
  | n + 1 => sequence (taskAttributes (validateTaskList n))

/-- The attributes of an agent (`load.cpp:66-75`) -/
def agentAttributes : Check :=
  attributes [
    optional "performance" (anyOf (attributes [required "min", required "max"]) scalar),
    optional "groups" sequence]

end Angonoka.Validation

namespace Angonoka

/- Nesting depth of a YAML tree; used only to bound the recursion of the schema check. -/
mutual
/-- Nesting depth of a YAML tree. -/
def Yaml.depth : Yaml → Nat
  | .null => 0
  | .scalar _ => 0
  | .seq l => Yaml.depthList l + 1
  | .map l => Yaml.depthEntries l + 1
/-- Maximal depth of the items of a sequence. -/
def Yaml.depthList : List Yaml → Nat
  | [] => 0
  | n :: rest => max n.depth (Yaml.depthList rest)
/-- Maximal depth of the values of a map. -/
def Yaml.depthEntries : List (Yaml × Yaml) → Nat
  | [] => 0
  | (_, v) :: rest => max v.depth (Yaml.depthEntries rest)
end

end Angonoka

namespace Angonoka.Validation

/-- `validate_configuration` (`load.cpp:60-82`); the thrown `SchemaError` carries the text. -/
def validateConfiguration (root : Yaml) : Except String Unit :=
  attributes [
    required "agents" (values agentAttributes),
    required "tasks" (validateTaskList root.depth)] root ""

end Angonoka.Validation
