import Mathlib.Data.Rat.Defs
import Mathlib.Algebra.Order.Ring.Rat
import Verif.Base.Outcome

/-!
# Project data

Model of `/repo/src/project.h` and `/repo/src/project.cpp`.
-/

namespace Angonoka

/-- A `float` as it can come out of the configuration file: a finite number,
an infinity or not-a-number. -/
inductive XFloat where
  | fin (q : ℚ)
  | pinf
  | ninf
  | nan
  deriving DecidableEq, Repr

namespace XFloat

/-- `x <= y` on floats: false if either side is NaN. -/
def le : XFloat → XFloat → Bool
  | nan, _ | _, nan => false
  | ninf, _ | _, pinf => true
  | pinf, _ | _, ninf => false
  | fin a, fin b => decide (a ≤ b)

/-- `x > y` on floats: false if either side is NaN. -/
def gt : XFloat → XFloat → Bool
  | nan, _ | _, nan => false
  | ninf, _ | _, pinf => false
  | pinf, _ | _, ninf => true
  | fin a, fin b => decide (b < a)

end XFloat

/-- Set of indices: `boost::container::flat_set`, a strictly ascending array. -/
abbrev IndexSet := List Nat

/-- `flat_set::emplace`: insert at the sorted position unless present. -/
def IndexSet.insert (x : Nat) : IndexSet → IndexSet
  | [] => [x]
  | y :: ys => if x < y then x :: y :: ys else if x = y then y :: ys else y :: insert x ys

/-- `Agent` (`/repo/src/project.h:30-47`). The default performance is 1
(`project.h:35-37`). Indices are `Nat`; the code's `int8` range checks are
explicit in the loader. -/
structure Agent where
  id : Nat := 0
  name : String := ""
  groupIds : IndexSet := []
  perfMin : XFloat := .fin 1
  perfMax : XFloat := .fin 1
  deriving DecidableEq, Repr

/-- `Task` (`/repo/src/project.h:85-101`). Durations in seconds. -/
structure Task where
  name : String := ""
  id : String := ""
  groupIds : IndexSet := []
  agentId : Option Nat := none
  dependencies : IndexSet := []
  durMin : Int := 0
  durMax : Int := 0
  deriving DecidableEq, Repr

/-- `Project` (`/repo/src/project.h:162-168`) without the optimization
parameters and bin size, which loading leaves at their defaults. -/
structure Project where
  groups : List String := []
  agents : List Agent := []
  tasks : List Task := []
  deriving DecidableEq, Repr

/-- `is_universal` (`/repo/src/project.cpp:8-11`) -/
def isUniversal (a : Agent) : Bool := a.groupIds.isEmpty

/-- `ranges::includes` on sorted ranges (`/repo/src/project.cpp:28`): the usual
merge, `xs` includes `ys`. -/
def includes : List Nat → List Nat → Bool
  | _, [] => true
  | [], _ :: _ => false
  | x :: xs, y :: ys =>
    if y < x then false else if x < y then includes xs (y :: ys) else includes xs ys

/-- `can_work_on(agent, task)` (`/repo/src/project.cpp:21-29`) -/
def canWorkOn (a : Agent) (t : Task) : Bool :=
  match t.agentId with
  | some i => i == a.id
  | none => isUniversal a || (!t.groupIds.isEmpty && includes a.groupIds t.groupIds)

/-- `can_work_on(agent, group)` (`/repo/src/project.cpp:13-19`) -/
def canWorkOnGroup (a : Agent) (g : Nat) : Bool :=
  if isUniversal a then true else a.groupIds.contains g

/-- `has_universal_agents` (`/repo/src/project.cpp:31-36`) without its contract
`!config.agents.empty()`, which callers check. -/
def hasUniversalAgents (p : Project) : Bool := p.agents.any isUniversal

/-- `Task::Duration::average` (`/repo/src/project.cpp:46-52`); integer division
of `std::chrono::seconds` truncates toward zero. The sum has to fit 64 bits. -/
def Task.averageDuration (t : Task) : Outcome Int := do
  Outcome.expects (decide (0 < t.durMin)) "Duration::average: min > 0"
  Outcome.expects (decide (t.durMin ≤ t.durMax)) "Duration::average: min <= max"
  if t.durMin + t.durMax < 2 ^ 63 then return (t.durMin + t.durMax).tdiv 2
  else .ub "Duration::average: overflow"

/-- Range check of `int8` (`/repo/src/common.h:8`): converting a non-negative
value above 127 throws. -/
def toInt8 (n : Nat) : Outcome Nat := if n ≤ 127 then .ok n else .throws .range

end Angonoka
