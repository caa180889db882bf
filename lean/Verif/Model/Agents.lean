import Verif.Model.Project
import Verif.Model.Yaml

/-!
# Loading of agents

Model of `/repo/src/config/agents.cpp` and of `find_or_insert_group`
(`/repo/src/config/load.cpp:116-128`).
-/

namespace Angonoka.Load
open Angonoka Outcome

/-- Index of the first element equal to `x` (`ranges::find` + `std::distance`). -/
def findIdx [BEq α] (x : α) : List α → Option Nat
  | [] => none
  | y :: ys => if y == x then some 0 else (findIdx x ys).map (· + 1)

/-- `find_or_insert_group` (`load.cpp:116-128`): the new table, the index (converted to
`int8`, which may throw) and whether the group is new. -/
def findOrInsertGroup (groups : List String) (group : String) :
    Outcome (List String × Nat × Bool) := do
  expects (!group.isEmpty) "find_or_insert_group: group not empty"
  match findIdx group groups with
  | some i =>
    let i ← toInt8 i
    return (groups, i, false)
  | none =>
    let groups := groups ++ [group]
    let i ← toInt8 (groups.length - 1)
    return (groups, i, true)

/-- `parse_agent_groups` (`agents.cpp:25-35`): loop over the nodes, accumulating the
agent's group set and the table. -/
def parseAgentGroups : List Yaml → IndexSet → List String → Outcome (IndexSet × List String)
  | [], gids, groups => ok (gids, groups)
  | g :: rest, gids, groups => do
    let (groups, gid, _) ← findOrInsertGroup groups g.text
    parseAgentGroups rest (IndexSet.insert gid gids) groups

/-- `validate_performance` (`agents.cpp:45-50`); `none` stands for the thrown
`std::domain_error`. -/
def validatePerformance (x : XFloat) : Option XFloat :=
  if x.le (.fin 0) then none else some x

/-- Conversion of scalar text to `float` (`YAML::Node::as<float>`): `none` if it throws.
A parameter of the model. -/
abbrev ReadFloat := String → Option XFloat

/-- `validate_performance(node.as<float>())` with the two `catch` clauses of
`parse_agent_performance` (`agents.cpp:80-84`). `as<float>` on a non-scalar throws. -/
def readPerformance (rf : ReadFloat) (who : String) (n : Option Yaml) : Outcome XFloat :=
  match n with
  | some (.scalar s) =>
    match rf s with
    | none => throws (.invalidAgentPerformance who)
    | some x =>
      match validatePerformance x with
      | none => throws (.negativePerformance who)
      | some x => ok x
  | _ => throws (.invalidAgentPerformance who)

/-- The two forms of a performance (`agents.cpp:68-79`) -/
def readPerformances (rf : ReadFloat) (node : Yaml) (a : Agent) : Outcome Agent :=
  if node.isScalar then do
    let x ← readPerformance rf a.name (some node)
    return { a with perfMin := x, perfMax := x }
  else do
    let lo ← readPerformance rf a.name (node.get "min")
    let hi ← readPerformance rf a.name (node.get "max")
    return { a with perfMin := lo, perfMax := hi }

/-- `parse_agent_performance` (`agents.cpp:64-87`) -/
def parseAgentPerformance (rf : ReadFloat) (node : Yaml) (a : Agent) : Outcome Agent := do
  let a ← readPerformances rf node a
  if a.perfMin.gt a.perfMax then throws (.agentPerformanceMinMax a.name)
  else ok a

/-- `check_for_duplicates` (`agents.cpp:95-102`) -/
def checkAgentDuplicates (agents : List Agent) (name : String) : Outcome Unit := do
  expects (!name.isEmpty) "check_for_duplicates: name not empty"
  if agents.any (fun a => a.name == name) then throws (.duplicateAgentDefinition name)
  else ok ()

/-- The optional `groups` of an agent (`agents.cpp:168-170`) -/
def parseGroupsField (data : Yaml) (a : Agent) (groups : List String) :
    Outcome (Agent × List String) :=
  match data.get "groups" with
  | some g => do
    let (gids, groups) ← parseAgentGroups g.items a.groupIds groups
    return ({ a with groupIds := gids }, groups)
  | none => return (a, groups)

/-- The optional `performance` of an agent (`agents.cpp:173-175`) -/
def parsePerformanceField (rf : ReadFloat) (data : Yaml) (a : Agent) : Outcome Agent :=
  match data.get "performance" with
  | some n => parseAgentPerformance rf n a
  | none => return a

/-- `parse_agent` (`agents.cpp:155-180`) -/
def parseAgent (rf : ReadFloat) (node data : Yaml) (p : Project) : Outcome Project := do
  let name := node.text
  expects (!name.isEmpty) "parse_agent: name not empty"
  checkAgentDuplicates p.agents name
  let id ← toInt8 p.agents.length
  let a : Agent := { id := id, name := name }
  let (a, groups) ← parseGroupsField data a p.groups
  let a ← parsePerformanceField rf data a
  return { p with groups := groups, agents := p.agents ++ [a] }

/-- Loop of `parse_agents` (`agents.cpp:189-194`) -/
def parseAgentsLoop (rf : ReadFloat) : List (Yaml × Yaml) → Project → Outcome Project
  | [], p => ok p
  | (k, v) :: rest, p => do
    let p ← parseAgent rf k v p
    parseAgentsLoop rf rest p

/-- `parse_agents` (`agents.cpp:184-197`) -/
def parseAgents (rf : ReadFloat) (node : Yaml) (p : Project) : Outcome Project := do
  expects p.agents.isEmpty "parse_agents: no agents yet"
  if node.size = 0 then throws (.cantBeEmpty "\"agents\"")
  else do
    let p ← parseAgentsLoop rf node.entries p
    expects (!p.agents.isEmpty) "parse_agents: agents not empty"
    return p

end Angonoka.Load
